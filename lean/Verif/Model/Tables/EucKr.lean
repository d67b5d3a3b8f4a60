import Verif.Model.Table
/-
Index tables of EUC-KR.
Transcribed by a script; see Verif.Model.Table for the packing.
-/
namespace Verif.Model.Tables
open Verif.Model.Table

set_option maxRecDepth 100000

/-- Rows of `index_code_point_euc_kr`. -/
def cpEucKrData : Nat := pack 480 [
  0x0ac320ac2e0ac2b0ac2a0ac290ac280ac270ac260ac250ac230ac220ac210ac1f0ac1e0ac180ac0f0ac0e0ac0d0ac0c0ac0b0ac060ac050ac030ac02,
  0x0ac480ac470ac460ac450ac440ac430ac420ac410ac3f0ac3e0ac3d0ac3b0ac3a0ac370ac360ac35ffffffffffffffffffffffffffffff0ac340ac33,
  0x0ac5f0ac5e0ac5d0ac5b0ac5a0ac590ac570ac56ffffffffffffffffffffffffffffff0ac550ac530ac520ac510ac500ac4f0ac4e0ac4c0ac4a0ac49,
  0x0ac7d0ac7c0ac7b0ac790ac760ac750ac730ac720ac6f0ac6e0ac6d0ac6c0ac6b0ac6a0ac690ac680ac670ac660ac650ac640ac630ac620ac610ac60,
  0x0aca60aca50aca40aca30aca20ac9e0ac9b0ac9a0ac990ac980ac970ac960ac950ac930ac920ac910ac8f0ac8e0ac8d0ac880ac870ac820ac7f0ac7e,
  0x0accd0accb0acca0acc90acc70acc60acc50acc30acc20acc00acbf0acbe0acba0acb70acb60acb50acb40acb30acb20acb10acae0acad0acab0aca7,
  0x0acee0aced0aceb0ace90ace60ace50ace30ace20acdf0acde0acdd0acdc0acdb0acda0acd90acd80acd60acd40acd30acd20acd10acd00accf0acce,
  0x0ad150ad140ad130ad120ad100ad0e0ad0b0ad0a0ad090ad080ad070ad050ad030ad020ad010acff0acfe0acfb0acfa0acf90acf80acf70acf40acf2,
  0x0ad330ad320ad310ad300ad2f0ad2e0ad2b0ad2a0ad280ad270ad260ad250ad240ad230ad220ad210ad1f0ad1e0ad1d0ad1b0ad1a0ad190ad170ad16,
  0x0ad4d0ad4c0ad4b0ad4a0ad480ad460ad430ad420ad410ad400ad3f0ad3e0ad3d0ad3b0ad3a0ad390ad370ad36ffffffffffffffffffffffffffffff,
  0x0ad640ad620ad600ad5f0ad5e0ad5d0ad5c0ad5b0ad5a0ad59ffffffffffffffffffffffffffffff0ad570ad560ad550ad530ad520ad510ad4f0ad4e,
  0x0ad8b0ad8a0ad870ad860ad850ad840ad830ad800ad7e0ad7a0ad790ad780ad770ad720ad710ad6f0ad6e0ad6b0ad6a0ad690ad680ad670ad660ad65,
  0x0ada80ada70ada60ada50ada30ada20ada10ada00ad9f0ad9e0ad9b0ad9a0ad990ad980ad970ad960ad950ad940ad930ad920ad910ad8f0ad8e0ad8d,
  0x0adc30adc20adbf0adbe0adbd0adbc0adbb0adba0adb90adb80adb60adb50adb40adb30adb20adb10adb00adaf0adae0adad0adac0adab0adaa0ada9,
  0x0ade20ade10addf0adde0addd0addb0adda0add90add80add70add60add50add40add20adcf0adce0adcd0adcc0adcb0adca0adc90adc70adc60adc5,
  0x0adfe0adfd0adfb0adfa0adf70adf60adf50adf40adf30adf20adf10adf00adef0adee0aded0adec0adeb0adea0ade90ade80ade70ade60ade50ade3,
  0xffffffffff0ae1c0ae1b0ae1a0ae190ae180ae170ae160ae150ae130ae120ae110ae100ae0f0ae0e0ae0c0ae0a0ae070ae060ae050ae040ae030ae02,
  0x0ae320ae2f0ae2e0ae2d0ae2c0ae2b0ae2a0ae290ae280ae270ae260ae250ae240ae230ae220ae210ae200ae1f0ae1e0ae1dffffffffffffffffffff,
  0x0ae520ae510ae4f0ae4b0ae490ae480ae470ae440ae420ae3f0ae3e0ae3dffffffffffffffffffffffffffffff0ae3c0ae3b0ae390ae360ae350ae33,
  0x0ae760ae750ae740ae730ae720ae710ae6f0ae6e0ae6d0ae6b0ae6a0ae670ae660ae640ae630ae620ae5e0ae5b0ae5a0ae590ae580ae570ae550ae53,
  0x0ae960ae950ae940ae930ae920ae910ae900ae8f0ae8e0ae8d0ae8b0ae8a0ae890ae880ae870ae860ae830ae820ae810ae800ae7f0ae7e0ae7a0ae77,
  0x0aeae0aead0aeac0aeab0aeaa0aea90aea80aea70aea60aea50aea40aea30aea20aea10aea00ae9f0ae9e0ae9d0ae9c0ae9b0ae9a0ae990ae980ae97,
  0x0aecb0aeca0aec90aec80aec70aec60aec50aec30aec20aec10aebf0aebb0aeba0aeb90aeb80aeb70aeb60aeb50aeb40aeb30aeb20aeb10aeb00aeaf,
  0x0aeee0aeec0aeea0aee90aee70aee60aee50aee40aee30aee20aee10aee00aedf0aede0aedd0aedb0aeda0aed70aed60aed50aed40aed30aed20aece,
  0xffffffffffffffffffff0af050af040af030af020af010af000aeff0aefe0aefd0aefb0aefa0aef90aef70aef60aef50aef30aef20aef10aef00aeef,
  0x0af1f0af1e0af1d0af1c0af1b0af1a0af190af180af170af160af150af140af130af120af110af0f0af0e0af0c0af0b0af0a0af090af06ffffffffff,
  0x0af360af350af330af310af2f0af2e0af2b0af2a0af290af280af270af260af250af24ffffffffffffffffffffffffffffff0af230af220af210af20,
  0x0af570af560af550af540af530af520af510af4f0af4e0af4d0af4c0af4b0af4a0af470af460af450af440af400af3e0af3b0af3a0af390af380af37,
  0x0af730af720af710af700af6f0af6e0af6d0af6c0af6b0af6a0af690af680af670af660af630af620af610af600af5f0af5e0af5b0af5a0af590af58,
  0x0af8f0af8e0af8d0af8c0af8b0af8a0af890af870af860af850af830af820af810af7f0af7e0af7d0af7c0af7b0af7a0af780af770af760af750af74,
  0x0afab0afaa0afa90afa80afa70afa60afa50afa40afa30afa20afa10afa00af9f0af9e0af9d0af9b0af9a0af990af980af970af960af940af930af92,
  0x0afca0afc60afc50afc40afc30afc20afc10afbf0afbe0afbd0afbb0afba0afb70afb60afb50afb40afb30afb20afb10afb00afaf0afae0afad0afac,
  0xffffffffffffffffffffffffffffff0afe10afe00afdf0afde0afdd0afdb0afda0afd90afd80afd70afd60afd50afd30afd20afd10afd00afcf0afcc,
  0x0afff0affe0affd0affc0affb0affa0aff90aff70aff60aff50aff30aff20afef0afee0afed0afec0afeb0afea0afe70afe60afe50afe40afe30afe2,
  0x0b0170b0160b0150b0130b0120b0110b00f0b00e0b00d0b00b0b00a0b0090b0080b0070b0060b005ffffffffffffffffffffffffffffff0b0030b002,
  0x0b0320b0310b0300b02f0b02e0b02d0b02c0b02b0b02a0b0290b0270b0260b0250b0240b0230b0220b0210b0200b01f0b01e0b01b0b01a0b0190b018,
  0x0b0500b04f0b04d0b04b0b0490b0470b0460b0430b0420b0410b0400b03f0b03e0b03d0b03c0b03b0b03a0b0390b0380b0370b0360b0350b0340b033,
  0x0b06e0b06d0b06c0b06b0b06a0b0690b0680b0670b0660b0650b0640b0630b0620b0610b0600b05f0b05e0b05c0b05b0b05a0b0580b0560b0520b051,
  0x0b08a0b0890b0880b0870b0860b0850b0830b0820b0810b07f0b07e0b07b0b07a0b0790b0780b0770b0760b0750b0740b0730b0720b0710b0700b06f,
  0x0b0ba0b0b90b0b70b0b60b0b20b0b00b0aa0b0a70b0a60b0a50b0a40b0a30b09e0b09d0b09b0b0970b0960b0950b0940b0930b0920b0900b08e0b08b,
  0x0b0d50b0d3ffffffffffffffffffffffffffffff0b0d20b0cf0b0ce0b0cd0b0cc0b0cb0b0ca0b0c60b0c30b0c20b0c10b0c00b0bf0b0be0b0bd0b0bb,
  0x0b0f00b0ef0b0ee0b0ed0b0ec0b0eb0b0ea0b0e90b0e80b0e70b0e60b0e40b0e30b0e20b0e10b0df0b0de0b0dd0b0dc0b0db0b0da0b0d90b0d70b0d6,
  0x0b1020b1010b1000b0ff0b0fe0b0fd0b0fc0b0fb0b0fa0b0f90b0f80b0f70b0f60b0f50b0f40b0f30b0f20b0f1ffffffffffffffffffffffffffffff,
  0x0b12a0b1290b1270b1260b1220b1210b1200b11f0b11e0b11a0b1170b1160b1150b1140b1110b10f0b10e0b10d0b10a0b1070b1060b1050b1040b103,
  0x0b14c0b14b0b14a0b1490b1470b1460b1450b1430b1420b13f0b13e0b13d0b13c0b13b0b13a0b1360b1330b1320b1310b1300b12f0b12e0b12d0b12b,
  0x0b16b0b16a0b1690b1680b1670b1660b1650b1640b1630b1620b1610b15f0b15e0b15d0b15b0b15a0b1590b1570b1560b1530b1520b14f0b14e0b14d,
  0x0b18a0b1870b1860b1850b1840b1830b1810b17f0b17e0b17d0b17b0b17a0b1770b1760b1750b1740b1730b1720b1710b1700b16f0b16e0b16d0b16c,
  0x0b1aa0b1a90b1a70b1a60b1a50b1a40b1a30b1a20b1a10b1a00b19f0b19e0b19d0b19b0b19a0b1990b1970b1960b1950b1910b1900b18f0b18e0b18c,
  0x0b1bc0b1bb0b1ba0b1b9ffffffffffffffffffffffffffffff0b1b80b1b70b1b60b1b50b1b40b1b30b1b20b1b10b1b00b1af0b1ae0b1ad0b1ac0b1ab,
  0xffffffffff0b1d50b1d30b1d20b1d10b1cf0b1ce0b1cd0b1cb0b1ca0b1c90b1c80b1c70b1c60b1c50b1c40b1c30b1c20b1c10b1c00b1bf0b1be0b1bd,
  0x0b1ef0b1ee0b1ed0b1eb0b1ea0b1e70b1e60b1e50b1e40b1e30b1e20b1e10b1e00b1de0b1db0b1da0b1d90b1d80b1d70b1d6ffffffffffffffffffff,
  0x0b2100b20f0b20e0b20d0b20a0b2090b2070b2060b2030b2020b2010b2000b1ff0b1fe0b1fc0b1fa0b1f80b1f70b1f60b1f50b1f40b1f30b1f20b1f1,
  0x0b22d0b22c0b22b0b22a0b2290b2280b2270b2260b2250b2240b2230b2220b2210b21f0b21e0b21d0b21c0b21b0b21a0b2180b2160b2130b2120b211,
  0x0b2470b2460b2450b2440b2430b2420b2410b2400b23f0b23e0b23d0b23b0b23a0b2390b2380b2370b2360b2350b2330b2320b2310b2300b22f0b22e,
  0x0b2620b2610b25f0b25e0b25d0b25b0b25a0b2590b2570b2560b2550b2540b2530b2520b2510b2500b24f0b24e0b24d0b24c0b24b0b24a0b2490b248,
  0x0b27f0b27e0b27d0b27b0b27a0b2790b2780b2770b2760b2730b2720b2710b2700b26f0b26e0b26d0b26c0b26b0b26a0b2670b2660b2650b2640b263,
  0x0b2970b2960b2950b2930b2920b28fffffffffffffffffffffffffffffff0b28e0b28d0b28c0b28b0b28a0b2880b2870b2860b2830b2820b2810b280,
  0xffffffffffffffffffff0b2b70b2b60b2b50b2b30b2b20b2b10b2af0b2ae0b2ad0b2ab0b2a90b2a80b2a70b2a40b2a20b29f0b29e0b29d0b29c0b29b,
  0x0b2d10b2cf0b2ce0b2cd0b2cb0b2ca0b2c70b2c60b2c50b2c40b2c30b2c20b2c10b2c00b2bf0b2be0b2bd0b2bc0b2bb0b2ba0b2b90b2b8ffffffffff,
  0x0b3030b3020b2fe0b2fd0b2fc0b2f60b2f20b2f10b2f00b2ea0b2e90b2e70b2e30b2e10b2e00b2df0b2de0b2dc0b2da0b2d70b2d60b2d50b2d40b2d3,
  0x0b3230b3220b3210b3200b31f0b31e0b31d0b31b0b31a0b3190b3180b3170b3160b3120b30f0b30e0b30d0b30c0b30b0b30a0b3090b3070b3060b305,
  0x0b33b0b33a0b3390b3380b3370b3360b3350b3340b3330b3320b3310b3300b32f0b32e0b32d0b32c0b32b0b32a0b3290b3280b3270b3260b3250b324,
  0x0b3530b3520b3510b3500b34f0b34e0b34d0b34c0b34b0b34a0b3490b3480b3470b3460b3450b3440b3430b3420b3410b3400b33f0b33e0b33d0b33c,
  0x0b37d0b37c0b37b0b37a0b3790b3770b3760b3750b3730b3720b36f0b36d0b36c0b36a0b3680b3660b3630b3620b3610b3600b35d0b35a0b3590b357,
  0x0b3970b3960b3950b3930b3920b3910b38f0b38effffffffffffffffffffffffffffff0b38d0b38b0b38a0b3890b3880b3870b3860b3820b37f0b37e,
  0xffffffffffffffffffffffffffffff0b3ad0b3ab0b3aa0b3a90b3a70b3a60b3a50b3a40b3a30b3a20b39f0b39e0b39d0b39c0b39b0b39a0b3990b398,
  0x0b3c70b3c60b3c30b3c20b3c10b3c00b3bf0b3be0b3bd0b3bc0b3bb0b3ba0b3b90b3b80b3b70b3b60b3b50b3b40b3b30b3b20b3b10b3b00b3af0b3ae,
  0x0b3ed0b3ec0b3eb0b3ea0b3e90b3e70b3e60b3e50b3e30b3e20b3e10b3df0b3de0b3dc0b3da0b3d80b3d60b3d30b3d20b3d10b3cf0b3cd0b3ca0b3c9,
  0x0b4060b4050b4040b4030b4020b4010b4000b3ff0b3fe0b3fd0b3fb0b3fa0b3f90b3f80b3f70b3f60b3f50b3f40b3f30b3f20b3f10b3f00b3ef0b3ee,
  0x0b4220b4210b41f0b41e0b41d0b41b0b41a0b4190b4170b4160b4150b4140b4130b4120b4110b40f0b40e0b40d0b40c0b40b0b40a0b4090b4080b407,
  0x0b43e0b43d0b43c0b43b0b43a0b4390b4380b4370b4360b4350b4330b4320b4310b4300b42f0b42e0b42d0b42c0b42a0b4270b4260b4250b4240b423,
  0x0b45a0b4590b4570b4560b4550b4530b4520b44f0b44e0b44d0b44c0b44b0b44a0b4490b4480b4470b4460b4450b4440b4430b4420b4410b4400b43f,
  0x0b4710b4700b46f0b46e0b46d0b46b0b46a0b4690b4680b467ffffffffffffffffffffffffffffff0b4660b4640b4620b45f0b45e0b45d0b45c0b45b,
  0x0b4840b483ffffffffffffffffffffffffffffff0b4820b4810b47f0b47e0b47d0b47c0b47b0b47a0b4790b4780b4770b4760b4750b4740b4730b472,
  0x0b49e0b49c0b49b0b49a0b4990b4980b4970b4960b4950b4940b4930b4920b4910b4900b48f0b48e0b48d0b48c0b48b0b48a0b4890b4870b4860b485,
  0x0b4bc0b4bb0b4ba0b4b80b4b60b4b40b4b30b4b20b4b10b4b00b4af0b4ae0b4ad0b4ab0b4aa0b4a90b4a70b4a60b4a50b4a30b4a20b4a10b4a00b49f,
  0x0b4d90b4d80b4d70b4d60b4d40b4d30b4d20b4d10b4cf0b4ce0b4cd0b4cc0b4cb0b4ca0b4c90b4c70b4c60b4c50b4c30b4c20b4c10b4bf0b4be0b4bd,
  0x0b4fc0b4fb0b4fa0b4f90b4f70b4f60b4f50b4f40b4f30b4f20b4f00b4ee0b4eb0b4ea0b4e90b4e80b4e70b4e50b4e20b4e10b4df0b4de0b4db0b4da,
  0x0b5160b5130b5120b5110b5100b50f0b50e0b50d0b50c0b50b0b50a0b5090b5080b5070b5060b5050b5040b5030b5020b5010b5000b4ff0b4fe0b4fd,
  0x0b53b0b53a0b5390b5370b5360b5350b5330b5320b52f0b52e0b52d0b52c0b52b0b5260b5230b5220b5210b5200b51f0b51e0b51d0b51a0b5190b517,
  0x0b5570b5560b5550b5530b5520b5510b54f0b54e0b54a0b5490b5480b547ffffffffffffffffffffffffffffff0b5460b5420b53f0b53e0b53d0b53c,
  0x0b56e0b56d0b56c0b56bffffffffffffffffffffffffffffff0b56a0b5690b5680b5670b5660b5650b5640b5630b5620b55e0b55b0b55a0b5590b558,
  0x0b5860b5850b5840b5830b5820b5810b5800b57f0b57e0b57d0b57c0b57b0b57a0b5790b5780b5770b5760b5750b5740b5730b5720b5710b5700b56f,
  0x0b59e0b59d0b59c0b59b0b59a0b5990b5980b5970b5960b5950b5940b5930b5920b5910b5900b58f0b58e0b58d0b58c0b58b0b58a0b5890b5880b587,
  0x0b5c60b5c50b5c30b5c20b5c10b5bf0b5be0b5ba0b5b90b5b80b5b70b5b60b5b20b5af0b5ae0b5ad0b5ac0b5a90b5a70b5a60b5a50b5a30b5a20b59f,
  0x0b5e40b5e30b5e20b5e10b5e00b5df0b5de0b5dd0b5dc0b5db0b5da0b5d90b5d70b5d60b5d50b5d40b5d30b5d20b5ce0b5cb0b5ca0b5c90b5c80b5c7,
  0x0b5fd0b5fc0b5fb0b5fa0b5f90b5f80b5f70b5f60b5f50b5f40b5f30b5f20b5f10b5f00b5ef0b5ee0b5ed0b5eb0b5ea0b5e90b5e80b5e70b5e60b5e5,
  0x0b6190b6170b6160b6150b6130b6120b60f0b60e0b60d0b60c0b60b0b60a0b6090b6080b6070b6060b6050b6040b6030b6020b6010b6000b5ff0b5fe,
  0x0b62d0b62b0b62a0b6290b6280b6270b6260b6240b6230b6220b6210b6200b61f0b61effffffffffffffffffffffffffffff0b61d0b61c0b61b0b61a,
  0x0b6400b63f0b63e0b63d0b63c0b63bffffffffffffffffffffffffffffff0b63a0b6390b6380b6370b6360b6350b6330b6320b6310b6300b62f0b62e,
  0x0b6590b6580b6570b6560b6550b6540b6530b6520b6510b6500b64f0b64e0b64d0b64c0b64b0b64a0b6490b6470b6460b6450b6440b6430b6420b641,
  0x0b6730b6720b6710b6700b66f0b66e0b66d0b66c0b66b0b66a0b6690b6670b6660b6650b6630b6620b6610b6600b65f0b65e0b65d0b65c0b65b0b65a,
  0x0b68b0b68a0b6890b6880b6870b6860b6850b6840b6830b6820b6810b6800b67f0b67e0b67d0b67c0b67b0b67a0b6790b6780b6770b6760b6750b674,
  0x0b6a70b6a60b6a50b6a30b6a20b6a10b69f0b69e0b69b0b69a0b6990b6980b6970b6960b6950b6940b6930b6920b6910b6900b68f0b68e0b68d0b68c,
  0x0b6c20b6c10b6c00b6bf0b6be0b6bd0b6bc0b6bb0b6ba0b6b90b6b80b6b70b6b60b6b50b6b40b6b30b6b20b6b00b6af0b6ae0b6ad0b6aa0b6a90b6a8,
  0x0b6db0b6da0b6d90b6d80b6d70b6d60b6d50b6d30b6d20b6d10b6d00b6cf0b6ce0b6cd0b6cc0b6cb0b6ca0b6c90b6c80b6c70b6c60b6c50b6c40b6c3,
  0x0b6ed0b6ec0b6eb0b6ea0b6e90b6e80b6e70b6e60b6e50b6e40b6e30b6e20b6e10b6e00b6df0b6deffffffffffffffffffffffffffffff0b6dd0b6dc,
  0x0b7040b7030b7020b6ff0b6fe0b6fd0b6fc0b6fbffffffffffffffffffffffffffffff0b6fa0b6f90b6f70b6f60b6f50b6f30b6f20b6f10b6ef0b6ee,
  0x0b71d0b71c0b71b0b71a0b7190b7180b7170b7160b7150b7140b7130b7120b7110b7100b70f0b70e0b70d0b70c0b70b0b70a0b7090b7080b7070b706,
  0x0b73d0b73c0b73a0b7370b7360b7350b7340b7330b7320b7310b72e0b72d0b72b0b72a0b7270b7260b7250b7240b7230b7220b7210b7200b71f0b71e,
  0x0b75a0b7590b7580b7570b7560b7530b7520b7510b7500b74f0b74e0b74d0b74b0b74a0b7490b7470b7460b7450b7430b7420b7410b7400b73f0b73e,
  0x0b7790b7780b7770b7760b7740b7720b76f0b76e0b76d0b76c0b76b0b76a0b7690b7670b7660b7650b7630b7620b7610b75f0b75e0b75d0b75c0b75b,
  0x0b7a10b79f0b79e0b79d0b79b0b79a0b7950b7940b7930b78e0b78b0b78a0b7890b7880b7870b7860b7850b7830b7820b7810b77f0b77e0b77b0b77a,
  0x0b7c10b7c00b7bf0b7be0b7bd0b7bc0b7bb0b7ba0b7b90b7b70b7b60b7b30b7b20b7b10b7b00b7af0b7ae0b7aa0b7a70b7a60b7a50b7a40b7a30b7a2,
  0x0b7d50b7d40b7d30b7d20b7d10b7d00b7cf0b7ce0b7cd0b7cc0b7cb0b7ca0b7c80b7c60b7c50b7c40b7c30b7c2ffffffffffffffffffffffffffffff,
  0x0b7e70b7e60b7e50b7e40b7e30b7e20b7e10b7e00b7df0b7deffffffffffffffffffffffffffffff0b7dd0b7dc0b7db0b7da0b7d90b7d80b7d70b7d6,
  0x0b80b0b80a0b8060b8050b8040b8030b8020b7fe0b7fb0b7fa0b7f90b7f80b7f70b7f60b7f50b7f30b7f20b7f10b7ef0b7ee0b7eb0b7ea0b7e90b7e8,
  0x0b82d0b82b0b82a0b8290b8270b8260b8230b8220b8210b8200b81f0b81e0b81c0b81a0b8170b8160b8150b8140b8130b8120b8110b80f0b80e0b80d,
  0x0b84c0b84b0b84a0b8490b8480b8470b8460b8450b8430b8420b8410b83f0b83e0b83d0b83c0b83b0b83a0b8360b8330b8320b8310b8300b82f0b82e,
  0x0b86a0b8690b8680b8670b8660b8650b8630b8620b8610b85f0b85e0b85b0b85a0b8590b8580b8570b8560b8550b8540b8520b8500b84f0b84e0b84d,
  0x0b8880b8870b8860b8850b8840b8830b8820b8810b8800b87f0b87e0b87d0b87b0b87a0b8790b8770b8760b8750b8740b8730b8720b8700b86e0b86b,
  0xffffffffff0b89f0b89e0b89d0b89c0b89b0b89a0b8990b8980b8970b8960b8950b8940b8930b8920b8910b8900b88f0b88e0b88c0b88b0b88a0b889,
  0x0b8b60b8b50b8b30b8b20b8b10b8af0b8ae0b8ad0b8ac0b8ab0b8aa0b8a90b8a70b8a60b8a50b8a40b8a30b8a20b8a10b8a0ffffffffffffffffffff,
  0x0b8ce0b8cd0b8cb0b8ca0b8c90b8c80b8c70b8c60b8c40b8c20b8bf0b8beffffffffffffffffffffffffffffff0b8bd0b8bc0b8bb0b8ba0b8b90b8b7,
  0x0b8ee0b8ed0b8eb0b8ea0b8e70b8e60b8e50b8e40b8e30b8e20b8e00b8de0b8dc0b8db0b8da0b8d90b8d80b8d70b8d60b8d50b8d30b8d20b8d10b8cf,
  0x0b90c0b90b0b90a0b9090b9080b9070b9060b9050b9030b9020b9010b9000b8ff0b8fe0b8fc0b8fa0b8f70b8f60b8f50b8f40b8f30b8f20b8f10b8ef,
  0x0b9260b9250b9240b9230b9220b9210b91f0b91e0b91d0b91c0b91b0b91a0b9190b9170b9160b9150b9140b9130b9120b9110b9100b90f0b90e0b90d,
  0x0b9410b93f0b93e0b93b0b93a0b9390b9380b9370b9360b9350b9340b9330b9320b9310b9300b92f0b92e0b92d0b92c0b92b0b92a0b9290b9280b927,
  0x0b9610b95f0b95e0b95d0b95b0b95a0b9570b9560b9550b9540b9530b9520b9500b94e0b94d0b94b0b94a0b9490b9480b9470b9460b9450b9430b942,
  0xffffffffffffffffffff0b97d0b97b0b97a0b9790b9770b9760b9730b9720b9710b9700b96f0b96e0b96c0b96a0b9670b9660b9650b9640b9630b962,
  0x0b99a0b9990b9980b9970b9960b9950b9940b9930b9920b9910b9900b98f0b98c0b98b0b9880b9860b9830b9820b9810b9800b97f0b97effffffffff,
  0x0b9ae0b9ab0b9aa0b9a90b9a80b9a70b9a60b9a50b9a40b9a30b9a20b9a10b9a00b99fffffffffffffffffffffffffffffff0b99e0b99d0b99c0b99b,
  0x0b9d40b9d30b9cd0b9cb0b9ca0b9c70b9c60b9c50b9c40b9c30b9c20b9c00b9be0b9bb0b9ba0b9b90b9b80b9b70b9b60b9b50b9b30b9b20b9b10b9af,
  0x0b9fd0b9fc0b9fb0b9f60b9f30b9f20b9f10b9f00b9ef0b9ee0b9ed0b9eb0b9ea0b9e90b9e70b9e60b9e20b9e00b9df0b9dc0b9da0b9d70b9d60b9d5,
  0x0ba190ba180ba170ba160ba140ba130ba120ba110ba100ba0f0ba0e0ba0d0ba0c0ba0b0ba0a0ba090ba070ba060ba050ba040ba030ba020b9ff0b9fe,
  0x0ba310ba300ba2f0ba2e0ba2d0ba2c0ba2b0ba2a0ba290ba280ba270ba260ba250ba240ba230ba220ba210ba200ba1f0ba1e0ba1d0ba1c0ba1b0ba1a,
  0x0ba560ba520ba510ba500ba4f0ba4c0ba4a0ba470ba460ba450ba440ba430ba410ba3f0ba3e0ba3d0ba3b0ba3a0ba370ba360ba350ba340ba330ba32,
  0xffffffffffffffffffffffffffffff0ba6f0ba6e0ba6d0ba6c0ba6b0ba6a0ba660ba630ba620ba610ba600ba5f0ba5e0ba5d0ba5b0ba5a0ba590ba57,
  0x0ba900ba8f0ba8e0ba8d0ba8b0ba8a0ba890ba880ba860ba820ba810ba800ba7f0ba7e0ba7d0ba7c0ba7b0ba7a0ba790ba770ba760ba750ba730ba72,
  0x0baa20baa10baa00ba9f0ba9e0ba9d0ba9c0ba9b0ba9a0ba990ba980ba970ba960ba950ba940ba93ffffffffffffffffffffffffffffff0ba920ba91,
  0x0bac50bac30bac20bac10bac00babf0babe0babc0baba0bab70bab60bab50bab40bab30bab10baaf0baae0baad0baaa0baa70baa60baa50baa40baa3,
  0x0bae00badf0bade0badd0badc0badb0bada0bad70bad60bad50bad40bad30bad20bad10bad00bacf0bace0bacd0bacc0bacb0baca0bac90bac70bac6,
  0x0baf80baf70baf60baf50baf40baf30baf20baf10baf00baef0baee0baed0baec0baeb0baea0bae90bae80bae70bae60bae50bae40bae30bae20bae1,
  0x0bb160bb150bb140bb130bb120bb100bb0e0bb0c0bb0b0bb0a0bb090bb080bb070bb060bb050bb030bb020bb010baff0bafe0bafd0bafb0bafa0baf9,
  0x0bb330bb320bb310bb300bb2f0bb2e0bb2d0bb2c0bb2a0bb280bb270bb260bb250bb240bb230bb220bb210bb1f0bb1e0bb1d0bb1b0bb1a0bb190bb17,
  0x0bb550bb53ffffffffffffffffffffffffffffff0bb520bb510bb4e0bb4c0bb4b0bb4a0bb480bb460bb430bb420bb410bb400bb3f0bb3a0bb390bb37,
  0x0bb710bb700bb6f0bb6e0bb6d0bb6b0bb6a0bb690bb680bb670bb660bb650bb640bb620bb600bb5f0bb5e0bb5d0bb5c0bb5b0bb5a0bb590bb570bb56,
  0x0bb830bb820bb810bb800bb7f0bb7e0bb7d0bb7c0bb7b0bb7a0bb790bb780bb770bb760bb750bb740bb730bb72ffffffffffffffffffffffffffffff,
  0x0bb9e0bb9d0bb9c0bb9b0bb9a0bb990bb980bb970bb960bb950bb940bb930bb920bb910bb8f0bb8e0bb8d0bb8b0bb8a0bb890bb870bb860bb850bb84,
  0x0bbbb0bbba0bbb90bbb80bbb60bbb50bbb30bbb20bbb10bbb00bbaf0bbae0bbad0bbab0bbaa0bba90bba70bba60bba50bba30bba20bba10bba00bb9f,
  0x0bbd80bbd70bbd60bbd50bbd40bbd20bbd10bbcf0bbce0bbcd0bbcc0bbcb0bbca0bbc90bbc70bbc60bbc50bbc30bbc20bbc10bbbf0bbbe0bbbd0bbbc,
  0x0bbf00bbef0bbee0bbed0bbec0bbeb0bbea0bbe90bbe80bbe70bbe60bbe50bbe40bbe30bbe20bbe10bbe00bbdf0bbde0bbdd0bbdc0bbdb0bbda0bbd9,
  0x0bc1a0bc190bc130bc120bc100bc0e0bc0a0bc070bc060bc050bc040bc030bc010bbfe0bbfd0bbfb0bbfa0bbf70bbf60bbf50bbf40bbf30bbf20bbf1,
  0x0bc3a0bc390bc370bc36ffffffffffffffffffffffffffffff0bc350bc330bc320bc2f0bc2e0bc2c0bc2b0bc2a0bc280bc260bc230bc220bc210bc20,
  0xffffffffff0bc590bc580bc570bc560bc550bc540bc530bc520bc510bc4f0bc4e0bc4b0bc4a0bc480bc470bc460bc420bc3f0bc3e0bc3d0bc3c0bc3b,
  0x0bc6e0bc6d0bc6c0bc6b0bc6a0bc690bc680bc670bc660bc650bc640bc630bc620bc610bc600bc5f0bc5e0bc5c0bc5b0bc5affffffffffffffffffff,
  0x0bc890bc870bc860bc830bc820bc810bc800bc7f0bc7e0bc7d0bc7c0bc7b0bc7a0bc790bc780bc770bc760bc750bc740bc730bc720bc710bc700bc6f,
  0x0bcae0bcad0bcac0bcab0bcaa0bca90bca60bca50bca30bca20bc9f0bc9e0bc9d0bc9c0bc9b0bc980bc960bc930bc920bc910bc900bc8f0bc8d0bc8a,
  0x0bcd30bcd20bcce0bccc0bccb0bcca0bcc90bcc80bcc70bcc60bcc50bcc30bcc20bcc10bcbf0bcbe0bcbb0bcba0bcb90bcb80bcb70bcb60bcb20bcaf,
  0x0bcee0bced0bcec0bceb0bcea0bce90bce80bce70bce60bce50bce40bce30bce20bce10bce00bcdf0bcde0bcdd0bcdb0bcda0bcd90bcd70bcd60bcd4,
  0x0bd0f0bd0e0bd0d0bd0c0bd0b0bd0a0bd080bd060bd030bd020bd010bd000bcff0bcfe0bcfd0bcfb0bcfa0bcf90bcf70bcf30bcf20bcf10bcf00bcef,
  0x0bd230bd220bd210bd200bd1f0bd1effffffffffffffffffffffffffffff0bd1d0bd1c0bd1b0bd1a0bd190bd180bd170bd160bd150bd130bd120bd11,
  0xffffffffffffffffffff0bd390bd380bd370bd360bd350bd340bd330bd320bd310bd300bd2f0bd2e0bd2d0bd2b0bd2a0bd290bd280bd270bd260bd25,
  0x0bd540bd530bd520bd510bd4f0bd4e0bd4d0bd4b0bd4a0bd470bd460bd450bd440bd430bd420bd410bd3f0bd3e0bd3d0bd3c0bd3b0bd3affffffffff,
  0x0bd700bd6f0bd6e0bd6d0bd6c0bd6b0bd6a0bd690bd670bd660bd650bd630bd620bd610bd600bd5f0bd5e0bd5d0bd5c0bd5b0bd5a0bd570bd560bd55,
  0x0bd8f0bd8e0bd8d0bd8c0bd8b0bd860bd850bd830bd820bd7f0bd7e0bd7d0bd7c0bd7b0bd7a0bd790bd780bd770bd760bd750bd740bd730bd720bd71,
  0x0bdaf0bdae0bdad0bdac0bdab0bdaa0bda90bda80bda70bda60bda50bda30bda20bda10bda00bd9f0bd9e0bd9d0bd9b0bd980bd970bd960bd940bd92,
  0x0bdc90bdc80bdc70bdc60bdc50bdc40bdc30bdc20bdc10bdc00bdbf0bdbe0bdbd0bdbc0bdbb0bdba0bdb90bdb70bdb60bdb50bdb40bdb30bdb20bdb1,
  0x0bde50bde40bde30bde20bde10bde00bddf0bdde0bddd0bddb0bdda0bdd90bdd70bdd60bdd30bdd20bdd10bdd00bdcf0bdce0bdcd0bdcc0bdcb0bdca,
  0x0bdfb0bdfa0bdf90bdf70bdf60bdf50bdf30bdf2ffffffffffffffffffffffffffffff0bdf10bdef0bdee0bded0bdec0bdeb0bdea0bde80bde70bde6,
  0xffffffffffffffffffffffffffffff0be130be120be110be0f0be0e0be0b0be0a0be090be080be070be060be040be020be010bdff0bdfe0bdfd0bdfc,
  0x0be2f0be2e0be2d0be2c0be2b0be2a0be290be280be270be260be250be240be230be220be210be200be1e0be1b0be1a0be190be180be170be160be15,
  0x0be4a0be490be470be460be430be420be410be400be3f0be3e0be3d0be3c0be3b0be3a0be390be380be370be360be350be340be330be320be310be30,
  0x0be6f0be6e0be6d0be6c0be6b0be690be670be660be650be630be620be5f0be5e0be5d0be5c0be580be560be530be520be510be500be4f0be4d0be4b,
  0x0be960be950be940be930be920be8e0be8b0be8a0be890be880be870be860be850be830be820be810be7f0be7e0be7a0be790be780be770be760be72,
  0x0beb10beb00beaf0beae0bead0beac0beab0beaa0bea90bea70bea60bea50bea40bea30bea20bea10bea00be9f0be9e0be9d0be9c0be9b0be9a0be97,
  0x0bec90bec80bec70bec60bec50bec40bec30bec20bec10bec00bebf0bebe0bebd0bebc0bebb0beba0beb90beb80beb70beb60beb50beb40beb30beb2,
  0x0bee10bedf0bede0bedd0bedc0bedb0beda0bed90bed60bed5ffffffffffffffffffffffffffffff0bed30bed20becf0bece0becd0becc0becb0beca,
  0x0bef70bef6ffffffffffffffffffffffffffffff0bef50bef40bef30bef20bef10bef00beef0beee0beed0beeb0beea0bee90bee80bee70bee60bee2,
  0x0bf120bf110bf100bf0f0bf0e0bf0d0bf0c0bf0b0bf0a0bf070bf060bf050bf040bf030bf020bf000beff0befe0befd0befc0befb0befa0bef90bef8,
  0x0bf2f0bf2e0bf2d0bf2c0bf2b0bf2a0bf290bf280bf270bf260bf250bf240bf230bf220bf210bf200bf1f0bf1e0bf1a0bf170bf160bf150bf140bf13,
  0x0bf4b0bf4a0bf490bf470bf460bf450bf430bf420bf3f0bf3e0bf3d0bf3c0bf3b0bf3a0bf390bf380bf370bf360bf350bf340bf330bf320bf310bf30,
  0x0bf660bf650bf640bf630bf620bf610bf600bf5f0bf5e0bf5d0bf5c0bf5b0bf5a0bf590bf580bf570bf560bf540bf530bf520bf4f0bf4e0bf4d0bf4c,
  0x0bf7e0bf7d0bf7c0bf7b0bf7a0bf790bf780bf770bf760bf750bf740bf730bf720bf710bf700bf6f0bf6e0bf6d0bf6c0bf6b0bf6a0bf690bf680bf67,
  0x0bf970bf960bf950bf930bf920bf910bf900bf8f0bf8e0bf8d0bf8c0bf8b0bf8a0bf890bf880bf870bf860bf850bf840bf830bf820bf810bf800bf7f,
  0x0bfa90bfa80bfa70bfa60bfa50bfa40bfa30bfa20bfa10bfa00bf9f0bf9effffffffffffffffffffffffffffff0bf9d0bf9c0bf9b0bf9a0bf990bf98,
  0x0bfbc0bfbb0bfba0bfb9ffffffffffffffffffffffffffffff0bfb80bfb70bfb60bfb50bfb40bfb30bfb20bfb10bfaf0bfae0bfad0bfac0bfab0bfaa,
  0x0bfd90bfd80bfd70bfd60bfd50bfd30bfd20bfd10bfcf0bfce0bfcb0bfca0bfc90bfc80bfc70bfc60bfc40bfc30bfc20bfc10bfc00bfbf0bfbe0bfbd,
  0x0bff40bff30bff20bff10bff00bfef0bfee0bfed0bfec0bfeb0bfea0bfe90bfe80bfe70bfe60bfe50bfe40bfe30bfe20bfe00bfde0bfdd0bfdb0bfda,
  0x0c00c0c00b0c00a0c0090c0080c0070c0060c0050c0040c0030c0020c0010c0000bfff0bffe0bffd0bffc0bffb0bffa0bff90bff80bff70bff60bff5,
  0x0c0240c0230c0220c0210c0200c01f0c01e0c01d0c01c0c01b0c01a0c0190c0180c0170c0160c0150c0140c0130c0120c0110c0100c00f0c00e0c00d,
  0x0c03d0c03b0c03a0c0390c0380c0370c0360c0350c0340c0330c0320c0310c0300c02f0c02e0c02d0c02c0c02b0c02a0c0290c0280c0270c0260c025,
  0x0c0560c0550c0540c0530c0520c0500c04f0c04e0c04d0c04c0c04b0c04a0c0490c0480c0470c0460c0450c0440c0430c0420c0410c0400c03f0c03e,
  0x0c06d0c06c0c06b0c06a0c0670c0660c0650c0640c0630c0620c0610c05f0c05e0c05dffffffffffffffffffffffffffffff0c05b0c05a0c0590c057,
  0x0c07f0c07e0c07d0c07c0c07b0c07affffffffffffffffffffffffffffff0c0790c0780c0770c0760c0750c0740c0730c0720c0710c0700c06f0c06e,
  0x0c09b0c09a0c0990c0970c0960c0950c0930c0920c08f0c08e0c08d0c08c0c08b0c08a0c0890c0880c0870c0860c0850c0840c0830c0820c0810c080,
  0x0c0c40c0c30c0c20c0be0c0bb0c0ba0c0b90c0b80c0b70c0b20c0b10c0ae0c0ab0c0aa0c0a90c0a80c0a70c0a60c0a40c0a20c09f0c09e0c09d0c09c,
  0x0c0e90c0e70c0e60c0e30c0e20c0e10c0e00c0df0c0de0c0da0c0d70c0d60c0d50c0d40c0d30c0d20c0d10c0cf0c0ce0c0cd0c0cb0c0ca0c0c70c0c6,
  0x0c1090c1070c1060c1050c1030c1020c1010c0ff0c0fe0c0fd0c0fc0c0fb0c0fa0c0f80c0f60c0f30c0f20c0f10c0f00c0ef0c0ee0c0ed0c0eb0c0ea,
  0x0c12e0c12b0c12a0c1290c1280c1250c1220c1210c11b0c11a0c1190c1180c1170c1160c1140c1130c1120c1110c10f0c10e0c10d0c10c0c10b0c10a,
  0x0c1530c1520c1510c1500c14f0c14e0c14a0c1470c1460c1450c1440c1430c1420c1410c13f0c13e0c13d0c13b0c13a0c1370c1350c1340c1330c132,
  0x0c16e0c16d0c16c0c16b0c16a0c1660c1630c1620c1610c1600c15f0c15e0c15d0c15b0c15a0c159ffffffffffffffffffffffffffffff0c1570c156,
  0x0c1830c1820c1810c1800c17f0c17e0c17d0c17cffffffffffffffffffffffffffffff0c17b0c17a0c1790c1770c1760c1750c1730c1720c1710c16f,
  0x0c1a70c1a60c1a40c1a30c1a20c1a00c19e0c19b0c19a0c1990c1980c1970c1950c1930c1920c1910c18f0c18b0c18a0c1890c1880c1870c1860c184,
  0x0c1c50c1c30c1c20c1c10c1c00c1bf0c1be0c1bc0c1bb0c1ba0c1b90c1b80c1b70c1b60c1b50c1b40c1b30c1b20c1b10c1af0c1ae0c1ad0c1ab0c1aa,
  0x0c1e30c1e20c1e10c1df0c1de0c1dd0c1dc0c1db0c1da0c1d90c1d60c1d50c1d30c1d20c1d10c1d00c1cf0c1ce0c1cd0c1cb0c1ca0c1c90c1c70c1c6,
  0x0c2030c2020c2010c1ff0c1fe0c1fb0c1fa0c1f90c1f80c1f70c1f60c1f50c1f40c1f20c1ef0c1ee0c1ed0c1ec0c1eb0c1ea0c1e90c1e70c1e60c1e5,
  0x0c2250c2240c2230c2220c2210c21e0c21d0c21b0c21a0c2170c2160c2150c2140c2130c2120c2100c20e0c20b0c20a0c2090c2080c2070c2060c205,
  0x0c2450c2440c2430c2420c2410c2400c23f0c23e0c23d0c23c0c23b0c23a0c2390c2380c2370c2360c2350c2330c2300c22e0c22c0c22a0c2270c226,
  0x0c25c0c25b0c25a0c2590c2570c2560c2550c2530c2520c24f0c24e0c24d0c24c0c24b0c24a0c2490c2470c246ffffffffffffffffffffffffffffff,
  0x0c2730c2720c2710c26f0c26e0c26b0c26a0c2690c2680c267ffffffffffffffffffffffffffffff0c2660c2640c2630c2620c2610c25f0c25e0c25d,
  0x0c2930c2920c2910c28f0c28e0c28d0c28c0c28b0c28a0c2870c2860c2850c2840c2830c2820c2800c27e0c27b0c27a0c2790c2780c2770c2760c275,
  0x0c2b30c2b20c2b10c2b00c2af0c2ae0c2ab0c2aa0c2a90c2a70c2a60c2a30c2a20c2a10c2a00c29f0c29e0c29c0c29a0c2990c2970c2960c2950c294,
  0x0c2cf0c2ce0c2cd0c2cc0c2cb0c2ca0c2c90c2c80c2c70c2c60c2c50c2c40c2c30c2c20c2c10c2c00c2bf0c2be0c2bd0c2bc0c2bb0c2ba0c2b80c2b6,
  0x0c2f00c2ee0c2ea0c2e90c2e80c2e70c2e60c2e50c2e20c2e10c2df0c2de0c2db0c2da0c2d90c2d80c2d70c2d60c2d50c2d40c2d30c2d20c2d10c2d0,
  0x0c3160c3120c3110c3100c30f0c30e0c30b0c30a0c3070c3060c3050c3040c3030c3020c3010c2ff0c2fe0c2fd0c2fa0c2f70c2f50c2f40c2f30c2f2,
  0xffffffffff0c3320c3310c3300c32f0c32e0c32d0c32c0c32b0c32a0c3270c3260c3230c3220c3210c3200c31f0c31e0c31d0c31b0c31a0c3190c317,
  0x0c3470c3460c3440c3430c3420c3410c3400c33f0c33e0c33d0c33c0c33b0c33a0c3390c3380c3370c3360c3350c3340c333ffffffffffffffffffff,
  0x0c3590c3580c3570c3560c3550c3540c3530c3520c3510c3500c34f0c34effffffffffffffffffffffffffffff0c34d0c34c0c34b0c34a0c3490c348,
  0x0c3760c3750c3740c3730c3710c36f0c36e0c36d0c36b0c36a0c3670c3660c3650c3640c3630c3620c3610c3600c35f0c35e0c35d0c35c0c35b0c35a,
  0x0c3950c3940c3930c3920c3910c3900c38f0c38e0c38d0c38b0c38a0c3890c3870c3860c3850c3830c3820c3810c3800c37f0c37e0c37b0c37a0c377,
  0x0c3ad0c3ac0c3ab0c3aa0c3a90c3a80c3a70c3a60c3a50c3a40c3a30c3a20c3a10c3a00c39f0c39e0c39d0c39c0c39b0c39a0c3990c3980c3970c396,
  0x0c3c60c3c50c3c40c3c30c3c20c3c10c3bf0c3be0c3bd0c3bc0c3bb0c3ba0c3b90c3b80c3b70c3b60c3b50c3b40c3b30c3b20c3b10c3b00c3af0c3ae,
  0x0c3e40c3e30c3e10c3de0c3dd0c3db0c3da0c3d70c3d60c3d50c3d40c3d30c3d20c3d10c3d00c3cf0c3ce0c3cd0c3cc0c3cb0c3ca0c3c90c3c80c3c7,
  0xffffffffffffffffffff0c3fe0c3fd0c3fc0c3fb0c3fa0c3f90c3f70c3f60c3f30c3f20c3f10c3f00c3ef0c3ee0c3ec0c3eb0c3ea0c3e70c3e60c3e5,
  0x0c4160c4150c4140c4130c4120c4110c40f0c40e0c40d0c40c0c40b0c40a0c4090c4070c4060c4050c4040c4030c4020c4010c4000c3ffffffffffff,
  0x0c4290c4280c4270c4260c4250c4230c4220c4210c4200c41f0c41e0c41d0c41c0c41bffffffffffffffffffffffffffffff0c41a0c4190c4180c417,
  0x0c4460c4450c4440c4430c4420c4410c4400c43f0c43e0c43b0c43a0c4390c4380c4370c4360c4350c4330c4320c4310c42f0c42e0c42d0c42b0c42a,
  0x0c45f0c45e0c45d0c45c0c45b0c45a0c4590c4580c4570c4560c4550c4540c4530c4520c4510c4500c44f0c44e0c44d0c44c0c44b0c44a0c4490c447,
  0x0c47e0c47d0c47c0c47b0c47a0c4780c4770c4760c4730c4720c4710c4700c46f0c46e0c46d0c46b0c46a0c4690c4670c4660c4630c4620c4610c460,
  0x0c4980c4970c4960c4950c4930c4920c4910c4900c48f0c48e0c48d0c48c0c48b0c48a0c4890c4880c4870c4860c4850c4840c4830c4820c4810c47f,
  0x0c4b10c4b00c4af0c4ae0c4ad0c4ac0c4ab0c4aa0c4a90c4a80c4a70c4a60c4a50c4a40c4a30c4a20c4a10c4a00c49f0c49e0c49d0c49b0c49a0c499,
  0xffffffffffffffffffffffffffffff0c4c50c4c40c4c30c4c20c4c10c4c00c4bf0c4be0c4bd0c4bb0c4ba0c4b90c4b70c4b60c4b50c4b40c4b30c4b2,
  0x0c4dd0c4dc0c4db0c4da0c4d90c4d80c4d70c4d60c4d50c4d40c4d30c4d20c4d10c4d00c4cf0c4ce0c4cd0c4cc0c4cb0c4ca0c4c90c4c80c4c70c4c6,
  0x0c4f20c4ef0c4ee0c4ed0c4ec0c4eb0c4ea0c4e80c4e70c4e60c4e50c4e40c4e30c4e20c4e10c4e0ffffffffffffffffffffffffffffff0c4df0c4de,
  0x0c5120c5110c50f0c50e0c50d0c50b0c50a0c5090c5080c5070c5060c5050c5040c5030c5020c4fe0c4fd0c4fc0c4fb0c4f90c4f70c4f60c4f50c4f3,
  0x0c52f0c52e0c52d0c52b0c52a0c5270c5260c5250c5240c5230c5220c5210c5200c51f0c51e0c51d0c51b0c51a0c5190c5180c5170c5160c5150c513,
  0x0c55a0c5560c5520c5510c5500c54f0c54b0c5470c5460c5430c5420c5410c5400c53f0c53e0c53c0c53a0c5370c5360c5350c5340c5330c5320c531,
  0x0c57f0c57e0c57b0c57a0c5790c5780c5770c5760c5720c56f0c56e0c56d0c56c0c56b0c56a0c5690c5670c5660c5650c5630c5620c55f0c55c0c55b,
  0x0c5a30c5a20c5a10c59f0c59e0c59d0c59b0c59a0c5990c5960c5940c5930c5920c5900c58e0c58b0c58a0c5890c5880c5860c5850c5830c5820c581,
  0x0c5ba0c5b7ffffffffffffffffffffffffffffff0c5b60c5b30c5b20c5b10c5b00c5af0c5ae0c5ad0c5ac0c5ab0c5aa0c5a80c5a70c5a60c5a50c5a4,
  0x0c5e70c5e60c5e40c5e20c5df0c5de0c5dd0c5dc0c5db0c5da0c5d90c5d70c5d60c5d50c5d30c5d20c5cf0c5cd0c5cb0c5c30c5c20c5c10c5c00c5bf,
  0x0c60a0c6090c6040c6030c6020c5fb0c5fa0c5f90c5f80c5f50c5f30c5f20c5f10c5ef0c5eb0c5ea0c5e90c5e8ffffffffffffffffffffffffffffff,
  0x0c62b0c62a0c6290c6270c6260c6230c6220c6210c6200c61f0c61e0c61d0c61a0c6170c6160c6150c6140c6130c6120c6110c60f0c60e0c60d0c60b,
  0x0c6560c6520c64f0c64e0c64d0c64c0c64b0c64a0c6490c6470c6460c6450c6430c6420c63f0c63e0c63d0c63c0c63a0c6380c6360c6320c6310c62f,
  0x0c6740c6730c6720c6700c66e0c66d0c66b0c66a0c6690c6680c6670c6660c6650c6640c6630c6620c6610c65f0c65e0c65b0c65a0c6590c6580c657,
  0x0c6960c6930c6920c6910c6900c68f0c68e0c68c0c68a0c6870c6860c6850c6840c6830c6820c6810c67f0c67e0c67d0c67b0c67a0c6770c6760c675,
  0x0c6b70c6b60c6b50c6b30c6b20c6af0c6ae0c6ad0c6ac0c6ab0c6aa0c6a80c6a60c6a30c6a20c6a10c6a00c69f0c69e0c69d0c69b0c69a0c6990c697,
  0x0c6d30c6d20c6d10c6cfffffffffffffffffffffffffffffff0c6ce0c6cb0c6ca0c6c90c6c80c6c70c6c60c6c40c6c20c6bf0c6be0c6bd0c6bc0c6bb,
  0xffffffffff0c6f20c6f10c6ef0c6ee0c6ed0c6eb0c6ea0c6e70c6e60c6e50c6e40c6e30c6e20c6df0c6de0c6db0c6da0c6d90c6d80c6d70c6d60c6d5,
  0x0c70d0c70b0c70a0c7090c7070c7060c7030c7020c7010c7000c6ff0c6fe0c6fc0c6fb0c6fa0c6f70c6f60c6f50c6f40c6f3ffffffffffffffffffff,
  0x0c72d0c72c0c72b0c72a0c7290c7270c7260c7250c7230c7220c71f0c71e0c71d0c71c0c71b0c71a0c7180c7160c7130c7120c7110c7100c70f0c70e,
  0x0c75a0c7590c7500c74e0c74b0c7490c7480c7470c7460c7450c7430c7420c7410c73f0c73e0c73b0c73a0c7390c7380c7360c7340c7320c72f0c72e,
  0x0c7790c7770c7760c7730c7720c7710c7700c76f0c76e0c76d0c76c0c76a0c7690c7670c7660c7650c7640c7630c7620c7610c75f0c75e0c75d0c75b,
  0x0c7a90c7a80c7a70c7a20c79f0c79e0c79d0c79c0c79b0c7990c7950c7930c7920c78f0c78d0c78c0c78b0c7860c7820c7810c7800c77f0c77b0c77a,
  0x0c7cd0c7cb0c7ca0c7c70c7c60c7c50c7c40c7c30c7c20c7be0c7bb0c7ba0c7b90c7b80c7b70c7b60c7b50c7b30c7b20c7b10c7af0c7ae0c7ab0c7aa,
  0x0c7e30c7e20c7e10c7e00c7df0c7deffffffffffffffffffffffffffffff0c7dc0c7db0c7da0c7d90c7d70c7d60c7d50c7d40c7d30c7d20c7d10c7cf,
  0xffffffffffffffffffff0c7fa0c7f90c7f80c7f70c7f60c7f50c7f40c7f30c7f20c7f10c7f00c7ef0c7ee0c7ed0c7eb0c7ea0c7e90c7e70c7e60c7e5,
  0x0c81a0c8190c8180c8170c8140c8120c80f0c80e0c80d0c80c0c80b0c8090c8070c8060c8050c8030c8020c7ff0c7fe0c7fd0c7fc0c7fbffffffffff,
  0x0c83b0c83a0c8390c8370c8360c8350c8340c8330c8320c8300c82e0c82b0c82a0c8290c8280c8270c8260c8250c8230c8220c8210c81f0c81e0c81b,
  0x0c85a0c8590c8580c8570c8560c8550c8530c8520c8510c8500c84f0c84e0c84b0c84a0c8470c8460c8450c8440c8430c8420c8410c83f0c83e0c83d,
  0x0c8750c8730c8720c86f0c86e0c86d0c86c0c86b0c86a0c8690c8680c8670c8660c8650c8640c8630c8620c8610c8600c85f0c85e0c85d0c85c0c85b,
  0x0c8990c8980c8970c8960c8950c8930c8920c8910c8900c88f0c88e0c88a0c8890c8880c8840c8820c87f0c87e0c87d0c87c0c87b0c8790c8770c876,
  0x0c8b50c8b40c8b30c8b20c8b10c8b00c8af0c8ae0c8ad0c8ac0c8ab0c8aa0c8a90c8a70c8a60c8a50c8a40c8a30c8a20c8a00c89e0c89c0c89b0c89a,
  0x0c8cb0c8ca0c8c90c8c70c8c60c8c50c8c30c8c2ffffffffffffffffffffffffffffff0c8c10c8c00c8bf0c8be0c8bb0c8ba0c8b90c8b80c8b70c8b6,
  0xffffffffffffffffffffffffffffff0c8e50c8e30c8e20c8df0c8de0c8dd0c8dc0c8db0c8da0c8d80c8d60c8d30c8d20c8d10c8d00c8cf0c8ce0c8cd,
  0x0c9010c8ff0c8fe0c8fb0c8fa0c8f90c8f80c8f70c8f60c8f40c8f30c8f20c8f10c8f00c8ef0c8ee0c8ed0c8ec0c8eb0c8ea0c8e90c8e80c8e70c8e6,
  0x0201c02019020180223c0ff3c0222502015000ad03003000a80202602025000b70300203001030000c90e0c90b0c90a0c9090c9080c9070c9030c902,
  0x0203302032000b0022340221e022650226402260000f7000d7000b103011030100300f0300e0300d0300c0300b0300a030090300803015030140201d,
  0x025a1025c6025c7025ce025cf025cb02605026060203b000a70225202261022070220202312022a50222002640026420ffe50ffe10ffe00212b02103,
  0x0228202287022860220b022080222c0222b022350221d0223d0221a0226b0226a030130219402193021910219002192025bc025bd025b2025b3025a0,
  0x0c9230c9220c9210c9200c91f0c91e0c91d0c91c0c91b0c91a0c9190c9170c9160c9150c9140c9130c9120c9100ffe20222802227022290222a02283,
  0x0c9370c9360c9350c9330c9320c9310c9300c92f0c92e0c92dffffffffffffffffffffffffffffff0c92b0c92a0c9290c9280c9270c9260c9250c924,
  0x0c9490c948ffffffffffffffffffffffffffffff0c9470c9460c9450c9440c9430c9420c9410c9400c93f0c93e0c93d0c93c0c93b0c93a0c9390c938,
  0x0c9680c9670c9660c9650c9640c9620c95f0c95e0c95d0c95c0c95b0c95a0c9590c9570c9560c9550c9530c9520c94f0c94e0c94d0c94c0c94b0c94a,
  0x022110222e002d0000bf000a1002db000b8002d9002da002dd002d8002c70ff5e000b40220302200021d4021d20c96f0c96e0c96d0c96b0c96a0c969,
  0x025a7025a8025a5025a402592025d1025d0025a3025c802299026630266702665026610266002664025b6025b7025c0025c10203002109000a40220f,
  0x02122033c7021160321c0327f0266c0266a026690266d02198021960219902197021950202102020000b60261e0261c0260e0260f02668025a9025a6,
  0xfffffffffffffffffffffffffffffffffffffffffffffffffffffffffffffffffffffffffffffffffffffffffffffff000ae020ac02121033d8033c2,
  0x0c9860c9850c9840c9830c9820c9810c9800c97f0c97e0c97d0c97b0c97a0c9790c9780c9770c9760c9750c9730c9720c971ffffffffffffffffffff,
  0x0c9a00c99f0c99e0c99c0c99a0c9970c9960c9950c9940c9930c9920c991ffffffffffffffffffffffffffffff0c98f0c98e0c98d0c98b0c98a0c987,
  0x0c9b20c9b10c9b00c9afffffffffffffffffffffffffffffff0c9ae0c9ad0c9ac0c9ab0c9aa0c9a90c9a80c9a70c9a60c9a50c9a40c9a30c9a20c9a1,
  0x0c9d20c9cf0c9ce0c9cd0c9cc0c9cb0c9c90c9c60c9c50c9c30c9c20c9bf0c9be0c9bd0c9bc0c9bb0c9ba0c9b90c9b80c9b70c9b60c9b50c9b40c9b3,
  0x0ff140ff130ff120ff110ff100ff0f0ff0e0ff0d0ff0c0ff0b0ff0a0ff090ff080ff070ff060ff050ff040ff030ff020ff010c9db0c9d80c9d70c9d4,
  0x0ff2c0ff2b0ff2a0ff290ff280ff270ff260ff250ff240ff230ff220ff210ff200ff1f0ff1e0ff1d0ff1c0ff1b0ff1a0ff190ff180ff170ff160ff15,
  0x0ff440ff430ff420ff410ff400ff3f0ff3e0ff3d0ffe60ff3b0ff3a0ff390ff380ff370ff360ff350ff340ff330ff320ff310ff300ff2f0ff2e0ff2d,
  0x0ff5c0ff5b0ff5a0ff590ff580ff570ff560ff550ff540ff530ff520ff510ff500ff4f0ff4e0ff4d0ff4c0ff4b0ff4a0ff490ff480ff470ff460ff45,
  0x0c9ff0c9fe0c9fd0c9fb0c9fa0c9f70c9f60c9f50c9f40c9f30c9f20c9ee0c9eb0c9ea0c9e90c9e80c9e60c9e50c9e30c9e10c9df0c9de0ffe30ff5d,
  0x0ca190ca170ca160ca150ca130ca120ca110ca100ca0f0ca0e0ca0a0ca070ca060ca05ffffffffffffffffffffffffffffff0ca040ca030ca020ca01,
  0x0ca2c0ca2b0ca2a0ca280ca270ca26ffffffffffffffffffffffffffffff0ca250ca240ca230ca220ca210ca200ca1f0ca1e0ca1d0ca1c0ca1b0ca1a,
  0x0ca440ca430ca420ca410ca400ca3f0ca3e0ca3d0ca3c0ca3b0ca3a0ca390ca380ca370ca360ca350ca340ca330ca320ca310ca300ca2f0ca2e0ca2d,
  0x031460314503144031430314203141031400313f0313e0313d0313c0313b0313a0313903138031370313603135031340313303132031310ca460ca45,
  0x0315e0315d0315c0315b0315a031590315803157031560315503154031530315203151031500314f0314e0314d0314c0314b0314a031490314803147,
  0x031760317503174031730317203171031700316f0316e0316d0316c0316b0316a031690316803167031660316503164031630316203161031600315f,
  0x0318e0318d0318c0318b0318a031890318803187031860318503184031830318203181031800317f0317e0317d0317c0317b0317a031790317803177,
  0x0ca670ca660ca650ca640ca630ca620ca5e0ca5b0ca5a0ca590ca580ca570ca560ca550ca530ca520ca510ca4f0ca4e0ca4b0ca4a0ca490ca480ca47,
  0x0ca7a0ca790ca780ca770ca760ca750ca740ca730ca720ca710ca700ca6f0ca6e0ca6d0ca6c0ca6bffffffffffffffffffffffffffffff0ca6a0ca69,
  0x0ca8e0ca8d0ca8c0ca8b0ca8a0ca890ca880ca87ffffffffffffffffffffffffffffff0ca860ca850ca830ca820ca810ca800ca7f0ca7e0ca7c0ca7b,
  0x0caa70caa60caa50caa40caa30caa20caa10caa00ca9f0ca9e0ca9d0ca9c0ca9b0ca9a0ca990ca970ca960ca950ca940ca930ca920ca910ca900ca8f,
  0x021680216702166021650216402163021620216102160fffffffffffffffffffffffff02179021780217702176021750217402173021720217102170,
  0x003a00039f0039e0039d0039c0039b0039a003990039800397003960039500394003930039200391fffffffffffffffffffffffffffffffffff02169,
  0x003b8003b7003b6003b5003b4003b3003b2003b1ffffffffffffffffffffffffffffffffffffffff003a9003a8003a7003a6003a5003a4003a3003a1,
  0x0caa90caa8ffffffffffffffffffffffffffffff003c9003c8003c7003c6003c5003c4003c3003c1003c0003bf003be003bd003bc003bb003ba003b9,
  0x0cac50cac30cac20cac10cabf0cabe0cabb0caba0cab90cab80cab70cab60cab50cab40cab30cab20cab10cab00caaf0caae0caad0caac0caab0caaa,
  0x0cade0cadd0cadc0cadb0cada0cad70cad60cad50cad40cad20cad00cace0cacb0caca0cac90cac80cac70cac6ffffffffffffffffffffffffffffff,
  0x0caf20caf10caf00caef0caee0caed0caeb0caea0cae90cae8ffffffffffffffffffffffffffffff0cae70cae60cae50cae40cae30cae20cae10cadf,
  0x02502025000cb0a0cb090cb070cb060cb050cb040cb030cb020cb010cb000caff0cafe0cafd0cafc0cafb0cafa0caf90caf80caf70caf60caf50caf3,
  0x02537025280252f025200254b0253b0252b0253302523025170251b025130250f02503025010253c02534025240252c0251c0251402518025100250c,
  0x0252e0252d0252a02529025270252602522025210251f0251e0250d0250e0251502516025190251a0251102512025420253802525025300251d0253f,
  0xffffffffffffffffffffffffffffff0254a0254902548025470254602545025440254302541025400253e0253d0253a0253902536025350253202531,
  0x0cb0e0cb0d0cb0c0cb0bffffffffffffffffffffffffffffffffffffffffffffffffffffffffffffffffffffffffffffffffffffffffffffffffffff,
  0xffffffffff0cb290cb280cb270cb260cb250cb240cb230cb220cb1f0cb1e0cb1d0cb1c0cb1b0cb1a0cb190cb170cb160cb150cb130cb120cb110cb0f,
  0x0cb3d0cb3c0cb3b0cb3a0cb390cb380cb370cb360cb350cb340cb330cb320cb310cb300cb2f0cb2e0cb2d0cb2c0cb2b0cb2affffffffffffffffffff,
  0x0cb540cb530cb520cb510cb4f0cb4e0cb4d0cb4b0cb4a0cb470cb460cb45ffffffffffffffffffffffffffffff0cb440cb430cb420cb400cb3f0cb3e,
  0x021130339703396033950cb6c0cb6b0cb6a0cb690cb680cb670cb660cb650cb630cb620cb610cb600cb5f0cb5e0cb5c0cb5b0cb5a0cb570cb560cb55,
  0x033c80338903388033cf0338f0338e0338d033ca033a2033a1033a00339f0339e0339d0339c0339b0339a03399033a6033a5033a4033a3033c403398,
  0x03390033bf033be033bd033bc033bb033ba0338403383033820338103380033b9033b8033b7033b6033b5033b4033b3033b2033b1033b0033a8033a7,
  0x033c3033d3033d0033dd033ac033ab033aa033a9033db033af033ae033ad033c5033d60338c0338b0338a033c1033c00212603394033930339203391,
  0x0cb720cb710cb700cb6f0cb6e0cb6dfffffffffffffffffffffffffffffffffffffffffffffffffffffffffffffffffffffffffff033c6033dc033c9,
  0xffffffffffffffffffff0cb880cb870cb860cb850cb840cb830cb820cb810cb800cb7f0cb7e0cb7d0cb7c0cb7b0cb7a0cb770cb760cb750cb740cb73,
  0x0cb9f0cb9e0cb9d0cb9b0cb9a0cb990cb980cb970cb960cb950cb940cb930cb920cb910cb900cb8f0cb8e0cb8d0cb8c0cb8b0cb8a0cb89ffffffffff,
  0x0cbb10cbb00cbaf0cbae0cbad0cbac0cbab0cbaa0cba90cba80cba70cba60cba50cba4ffffffffffffffffffffffffffffff0cba30cba20cba10cba0,
  0x00132fffff00126000aa000d0000c60cbc40cbc30cbc20cbc10cbc00cbbf0cbbe0cbbd0cbbc0cbbb0cbba0cbb90cbb70cbb60cbb50cbb40cbb30cbb2,
  0x0326d0326c0326b0326a03269032680326703266032650326403263032620326103260fffff0014a00166000de000ba00152000d8001410013ffffff,
  0x024d9024d8024d7024d6024d5024d4024d3024d2024d1024d00327b0327a032790327803277032760327503274032730327203271032700326f0326e,
  0x0246702466024650246402463024620246102460024e9024e8024e7024e6024e5024e4024e3024e2024e1024e0024df024de024dd024dc024db024da,
  0x0cbcc0cbcb0cbca0cbc90cbc80cbc70cbc60cbc50215e0215d0215c0215b000be000bc0215402153000bd0246e0246d0246c0246b0246a0246902468,
  0xffffffffffffffffffffffffffffff0cbdf0cbde0cbdd0cbdc0cbdb0cbda0cbd90cbd80cbd70cbd60cbd50cbd30cbd20cbd10cbd00cbcf0cbce0cbcd,
  0x0cbfa0cbf90cbf80cbf70cbf60cbf50cbf40cbf30cbf20cbf10cbf00cbef0cbee0cbed0cbec0cbeb0cbea0cbe80cbe60cbe50cbe30cbe20cbe10cbe0,
  0x0cc0e0cc0b0cc0a0cc090cc080cc070cc060cc050cc040cc030cc020cc010cc000cbff0cbfe0cbfdffffffffffffffffffffffffffffff0cbfc0cbfb,
  0x0014000138001330013100127000f000111000e60cc240cc230cc200cc1f0cc1e0cc1b0cc1a0cc190cc180cc170cc160cc150cc130cc120cc110cc0f,
  0x0320f0320e0320d0320c0320b0320a03209032080320703206032050320403203032020320103200001490014b00167000fe000df00153000f800142,
  0x024a7024a6024a5024a4024a3024a2024a1024a00249f0249e0249d0249c0321b0321a03219032180321703216032150321403213032120321103210,
  0x0247d0247c0247b0247a024790247802477024760247502474024b5024b4024b3024b2024b1024b0024af024ae024ad024ac024ab024aa024a9024a8,
  0x0cc340cc330cc320cc310cc2f0cc2d0cc2b0cc2a0cc260cc25020840208302082020810207f02074000b3000b2000b90248202481024800247f0247e,
  0x0cc500cc4fffffffffffffffffffffffffffffff0cc4e0cc4d0cc4b0cc4a0cc490cc470cc460cc430cc420cc410cc400cc3f0cc3a0cc370cc360cc35,
  0x0cc720cc710cc6f0cc6e0cc6d0cc6c0cc6b0cc6a0cc690cc670cc650cc630cc620cc610cc5f0cc5e0cc5d0cc5c0cc5b0cc5a0cc560cc530cc520cc51,
  0x0cc850cc840cc830cc820cc810cc800cc7f0cc7e0cc7d0cc7c0cc7b0cc7a0cc790cc780cc770cc760cc740cc73ffffffffffffffffffffffffffffff,
  0x0304a0304903048030470304603045030440304303042030410cc930cc920cc910cc900cc8f0cc8e0cc8d0cc8c0cc8b0cc8a0cc890cc880cc870cc86,
  0x0306203061030600305f0305e0305d0305c0305b0305a030590305803057030560305503054030530305203051030500304f0304e0304d0304c0304b,
  0x0307a030790307803077030760307503074030730307203071030700306f0306e0306d0306c0306b0306a03069030680306703066030650306403063,
  0x0309203091030900308f0308e0308d0308c0308b0308a030890308803087030860308503084030830308203081030800307f0307e0307d0307c0307b,
  0x0cca30cca20cca10cc9f0cc9e0cc9d0cc9b0cc9a0cc970cc960cc950cc94fffffffffffffffffffffffffffffffffffffffffffffffffffffff03093,
  0x0ccbe0ccbd0ccbb0ccbaffffffffffffffffffffffffffffff0ccb90ccb70ccb60ccb30ccb20ccb10ccb00ccaf0ccae0ccaa0cca70cca60cca50cca4,
  0xffffffffff0ccda0ccd90ccd80ccd70ccd60ccd50ccd30ccd20ccd10cccf0ccce0cccd0cccc0cccb0ccca0ccc80ccc60ccc30ccc20ccc10ccc00ccbf,
  0x0ccf10ccef0ccee0cced0cceb0ccea0cce90cce80cce70cce60cce50cce30cce20cce10cce00ccdf0ccde0ccdd0ccdc0ccdbffffffffffffffffffff,
  0x030ac030ab030aa030a9030a8030a7030a6030a5030a4030a3030a2030a10ccfd0ccfc0ccfb0ccfa0ccf90ccf80ccf70ccf60ccf50ccf40ccf30ccf2,
  0x030c4030c3030c2030c1030c0030bf030be030bd030bc030bb030ba030b9030b8030b7030b6030b5030b4030b3030b2030b1030b0030af030ae030ad,
  0x030dc030db030da030d9030d8030d7030d6030d5030d4030d3030d2030d1030d0030cf030ce030cd030cc030cb030ca030c9030c8030c7030c6030c5,
  0x030f4030f3030f2030f1030f0030ef030ee030ed030ec030eb030ea030e9030e8030e7030e6030e5030e4030e3030e2030e1030e0030df030de030dd,
  0x0cd0f0cd0e0cd0d0cd0b0cd0a0cd070cd060cd050cd040cd030cd020cd000ccff0ccfeffffffffffffffffffffffffffffffffffffffff030f6030f5,
  0x0cd270cd260cd250cd230cd220cd21ffffffffffffffffffffffffffffff0cd200cd1f0cd1e0cd1c0cd1a0cd170cd160cd150cd140cd130cd120cd11,
  0xffffffffffffffffffff0cd3e0cd3d0cd3c0cd3b0cd3a0cd380cd370cd360cd350cd340cd330cd320cd310cd300cd2f0cd2e0cd2d0cd2b0cd2a0cd29,
  0x0cd540cd530cd520cd510cd500cd4f0cd4e0cd4d0cd4c0cd4b0cd4a0cd490cd480cd470cd460cd450cd440cd430cd420cd410cd400cd3fffffffffff,
  0x0041c0041b0041a00419004180041700416004010041500414004130041200411004100cd5f0cd5e0cd5d0cd5b0cd5a0cd590cd580cd570cd560cd55,
  0xfffffffffffffffffffffffff0042f0042e0042d0042c0042b0042a004290042800427004260042500424004230042200421004200041f0041e0041d,
  0x0043c0043b0043a0043900438004370043600451004350043400433004320043100430ffffffffffffffffffffffffffffffffffffffffffffffffff,
  0xfffffffffffffffffffffffff0044f0044e0044d0044c0044b0044a004490044800447004460044500444004430044200441004400043f0043e0043d,
  0x0cd750cd740cd730cd720cd700cd6e0cd6b0cd6a0cd690cd680cd670cd660cd650cd630cd620cd61ffffffffffffffffffffffffffffffffffffffff,
  0x0cd890cd870cd860cd850cd840cd830cd820cd81ffffffffffffffffffffffffffffff0cd800cd7f0cd7e0cd7d0cd7c0cd7b0cd7a0cd790cd770cd76,
  0xffffffffffffffffffffffffffffff0cd9f0cd9e0cd9d0cd9b0cd9a0cd990cd970cd960cd930cd920cd910cd900cd8f0cd8e0cd8d0cd8c0cd8b0cd8a,
  0x0cdbc0cdbb0cdba0cdb90cdb80cdb70cdb60cdb50cdb40cdb30cdb20cdb10cdaf0cdae0cdad0cdac0cdab0cdaa0cda80cda60cda30cda20cda10cda0,
  0xffffffffffffffffffffffffffffffffffffffffffffffffffffffffffffffffffffffffffffffff0cdc50cdc30cdc20cdc10cdc00cdbf0cdbe0cdbd,
  0xffffffffffffffffffffffffffffffffffffffffffffffffffffffffffffffffffffffffffffffffffffffffffffffffffffffffffffffffffffffff,
  0xffffffffffffffffffffffffffffffffffffffffffffffffffffffffffffffffffffffffffffffffffffffffffffffffffffffffffffffffffffffff,
  0xffffffffffffffffffffffffffffffffffffffffffffffffffffffffffffffffffffffffffffffffffffffffffffffffffffffffffffffffffffffff,
  0x0cdd90cdd80cdd70cdd60cdd50cdd40cdd30cdd20cdd10cdcf0cdce0cdcd0cdcb0cdca0cdc90cdc80cdc70cdc6ffffffffffffffffffffffffffffff,
  0x0cded0cdeb0cdea0cde90cde70cde60cde50cde40cde30cde2ffffffffffffffffffffffffffffff0cde10cde00cddf0cdde0cddd0cddc0cddb0cdda,
  0x0ce050ce03ffffffffffffffffffffffffffffff0ce020ce010ce000cdff0cdfe0cdfc0cdfa0cdf70cdf60cdf50cdf40cdf30cdf20cdf10cdef0cdee,
  0x0ce230ce220ce1f0ce1e0ce1d0ce1c0ce1b0ce1a0ce180ce170ce160ce150ce130ce120ce110ce100ce0f0ce0e0ce0d0ce0b0ce0a0ce090ce070ce06,
  0xffffffffffffffffffffffffffffffffffffffffffffffffffffffffffffffffffffffffffffffffffffffffff0ce2b0ce2a0ce290ce270ce260ce25,
  0xffffffffffffffffffffffffffffffffffffffffffffffffffffffffffffffffffffffffffffffffffffffffffffffffffffffffffffffffffffffff,
  0xffffffffffffffffffffffffffffffffffffffffffffffffffffffffffffffffffffffffffffffffffffffffffffffffffffffffffffffffffffffff,
  0xffffffffffffffffffffffffffffffffffffffffffffffffffffffffffffffffffffffffffffffffffffffffffffffffffffffffffffffffffffffff,
  0x0ce430ce420ce410ce400ce3f0ce3e0ce3d0ce3c0ce3b0ce3a0ce390ce380ce370ce360ce340ce320ce2f0ce2e0ce2d0ce2cffffffffffffffffffff,
  0x0ce550ce540ce530ce520ce510ce500ce4f0ce4e0ce4d0ce4c0ce4b0ce4affffffffffffffffffffffffffffff0ce490ce480ce470ce460ce450ce44,
  0x0ce710ce700ce6f0ce6effffffffffffffffffffffffffffff0ce6c0ce6a0ce670ce660ce650ce640ce630ce620ce5e0ce5d0ce5b0ce5a0ce570ce56,
  0x0ce930ce920ce8f0ce8e0ce8d0ce8c0ce8b0ce8a0ce880ce860ce830ce820ce810ce800ce7f0ce7e0ce7d0ce7b0ce7a0ce790ce770ce760ce730ce72,
  0xffffffffffffffffffffffffffffffffffffffffffffffffffffffffffffffffffffffffffffffffffffffffffffffffffff0ce990ce970ce960ce95,
  0xffffffffffffffffffffffffffffffffffffffffffffffffffffffffffffffffffffffffffffffffffffffffffffffffffffffffffffffffffffffff,
  0xffffffffffffffffffffffffffffffffffffffffffffffffffffffffffffffffffffffffffffffffffffffffffffffffffffffffffffffffffffffff,
  0xffffffffffffffffffffffffffffffffffffffffffffffffffffffffffffffffffffffffffffffffffffffffffffffffffffffffffffffffffffffff,
  0x0ceb60ceb50ceb40ceb30ceb20ceb10ceb00ceaf0ceae0ceab0ceaa0cea90cea80cea70cea60cea20ce9f0ce9e0ce9d0ce9c0ce9b0ce9affffffffff,
  0x0cec90cec80cec70cec60cec50cec40cec30cec20cec00cebf0cebe0cebd0cebc0cebbffffffffffffffffffffffffffffff0ceba0ceb90ceb80ceb7,
  0x0cedb0ceda0ced90ced80ced70ced6ffffffffffffffffffffffffffffff0ced50ced40ced30ced20ced10ced00cecf0cece0cecd0cecc0cecb0ceca,
  0x0cefd0cefc0cefb0cefa0cef60cef30cef20cef10cef00ceef0ceee0ceed0ceea0cee90cee70cee60cee30cee20cee10cee00cedf0cede0cedd0cedc,
  0x0ac240ac200ac1d0ac1c0ac1b0ac1a0ac190ac170ac160ac150ac140ac130ac120ac110ac100ac0a0ac090ac080ac070ac040ac010ac000ceff0cefe,
  0x0ac840ac830ac810ac800ac7a0ac780ac770ac740ac710ac700ac5c0ac580ac540ac4d0ac4b0ac400ac3c0ac390ac380ac310ac300ac2f0ac2d0ac2c,
  0x0acbd0acbc0acbb0acb90acb80acb00acaf0acac0acaa0aca90aca80aca10aca00ac9f0ac9d0ac9c0ac940ac900ac8c0ac8b0ac8a0ac890ac860ac85,
  0x0ad060ad040ad000acfd0acfc0acf60acf50acf30acf10acf00acef0acec0acea0ace80ace70ace40ace10ace00acd70acd50accc0acc80acc40acc1,
  0x0cf210cf1f0cf1e0cf1d0cf1b0cf1a0cf190cf180cf170cf160cf140cf120cf0f0cf0e0cf0d0cf0c0cf0b0cf0a0cf090cf070cf060cf050cf030cf02,
  0x0cf3a0cf390cf370cf360cf350cf340cf330cf320cf2e0cf2b0cf2a0cf290cf280cf270cf260cf25ffffffffffffffffffffffffffffff0cf230cf22,
  0x0cf4c0cf4b0cf4a0cf490cf480cf470cf460cf45ffffffffffffffffffffffffffffff0cf440cf430cf420cf410cf400cf3f0cf3e0cf3d0cf3c0cf3b,
  0x0cf6c0cf6b0cf6a0cf680cf660cf630cf620cf610cf600cf5f0cf5e0cf5d0cf5b0cf5a0cf590cf570cf560cf530cf520cf510cf500cf4f0cf4e0cf4d,
  0x0ad6c0ad630ad610ad580ad540ad500ad490ad470ad450ad440ad3c0ad380ad350ad340ad2d0ad2c0ad290ad200ad1c0ad180ad110ad0f0ad0d0ad0c,
  0x0adc80adc40adc10adc00adb70ada40ad9d0ad9c0ad900ad8c0ad890ad880ad820ad810ad7f0ad7d0ad7c0ad7b0ad760ad750ad740ad730ad700ad6d,
  0x0ae400ae3a0ae380ae370ae340ae310ae300ae140ae0d0ae0b0ae090ae080ae010ae000adff0adfc0adf90adf80ade40ade00addc0add30add10add0,
  0x0cf6e0cf6d0ae780ae700ae6c0ae690ae680ae650ae610ae600ae5f0ae5d0ae5c0ae560ae540ae500ae4e0ae4d0ae4c0ae4a0ae460ae450ae430ae41,
  0x0cf8d0cf8b0cf8a0cf890cf880cf870cf860cf840cf830cf820cf810cf7f0cf7e0cf7d0cf7c0cf7b0cf7a0cf790cf770cf760cf750cf730cf720cf6f,
  0x0cf9f0cf9e0cf9d0cf9c0cf9b0cf9a0cf990cf980cf970cf960cf950cf940cf930cf920cf910cf900cf8f0cf8effffffffffffffffffffffffffffff,
  0x0cfb40cfb30cfb20cfb10cfaf0cfae0cfad0cfac0cfab0cfaaffffffffffffffffffffffffffffff0cfa90cfa70cfa60cfa50cfa40cfa30cfa20cfa0,
  0x0ae7b0ae790cfcb0cfca0cfc90cfc80cfc70cfc60cfc50cfc30cfc20cfc10cfc00cfbf0cfbe0cfbd0cfbc0cfbb0cfba0cfb90cfb80cfb70cfb60cfb5,
  0x0aefc0aef80aef40aeed0aeeb0aee80aedc0aed90aed80aed10aed00aecf0aecd0aecc0aec40aec00aebe0aebd0aebc0ae8c0ae850ae840ae7d0ae7c,
  0x0af800af790af650af640af5d0af5c0af500af490af480af430af420af410af3f0af3d0af3c0af340af320af300af2d0af2c0af100af0d0af080af07,
  0x0aff80aff40aff10aff00afe90afe80afdc0afd40afce0afcd0afcb0afc90afc80afc70afc00afbc0afb90afb80af9c0af950af910af900af880af84,
  0x0cfcf0cfce0cfcd0cfcc0b0590b0570b0550b0540b0530b04e0b04c0b04a0b0480b0450b0440b0280b01d0b01c0b0140b0100b00c0b0040b0010b000,
  0xffffffffff0cfe90cfe70cfe60cfe50cfe30cfe20cfdf0cfde0cfdd0cfdc0cfdb0cfda0cfd90cfd80cfd70cfd60cfd50cfd40cfd30cfd20cfd10cfd0,
  0x0d0030d0020d0010cfff0cffe0cffd0cffb0cffa0cff90cff80cff70cff60cff40cff20cfef0cfee0cfed0cfec0cfeb0cfeaffffffffffffffffffff,
  0x0d0170d0160d0150d0140d0130d0120d0100d00f0d00e0d00d0d00c0d00bffffffffffffffffffffffffffffff0d00a0d0090d0080d0070d0060d005,
  0x0b0800b07d0b07c0b05d0d02c0d02b0d02a0d0290d0280d0270d0260d0250d0240d0230d0220d0210d0200d01f0d01e0d01d0d01c0d01b0d01a0d019,
  0x0b0b50b0b40b0b30b0b10b0af0b0ae0b0ad0b0ac0b0ab0b0a90b0a80b0a20b0a10b0a00b09f0b09c0b09a0b0990b0980b0910b08f0b08d0b08c0b084,
  0x0b11c0b11b0b1190b1180b1130b1120b1100b10c0b10b0b1090b1080b0e50b0e00b0d80b0d40b0d10b0d00b0c90b0c80b0c70b0c50b0c40b0bc0b0b8,
  0x0b1790b1780b1600b15c0b1580b1550b1540b1510b1500b1480b1440b1410b1400b1390b1380b1370b1350b1340b12c0b1280b1250b1240b1230b11d,
  0x0d0330d0320d0310d0300d02f0d02e0b1dd0b1dc0b1d40b1d00b1cc0b1a80b19c0b1980b1940b1930b1920b18d0b18b0b1890b1880b1820b1800b17c,
  0xffffffffffffffffffff0d04f0d04e0d04d0d04c0d04b0d04a0d0480d0460d0430d0420d0410d0400d03f0d03e0d03d0d03b0d03a0d0390d0370d036,
  0x0d0690d0680d0670d0660d0650d0640d0630d0620d0610d05f0d05e0d05d0d05c0d05b0d05a0d0590d0570d0560d0550d0530d0520d051ffffffffff,
  0x0d0820d0800d07f0d07e0d07b0d07a0d0790d0780d0770d0760d0750d0730d0720d071ffffffffffffffffffffffffffffff0d06f0d06e0d06b0d06a,
  0x0b1f90b1f00b1ec0b1e90b1e80b1df0d0940d0930d0920d0910d0900d08f0d08e0d08d0d08c0d08b0d08a0d0890d0880d0870d0860d0850d0840d083,
  0x0b2850b2840b27c0b2750b2740b2690b2680b2600b25c0b2580b23c0b2340b2200b2190b2170b2150b2140b20c0b20b0b2080b2050b2040b1fd0b1fb,
  0x0b2db0b2d90b2d80b2d20b2d00b2cc0b2c90b2c80b2b40b2b00b2ac0b2aa0b2a60b2a50b2a30b2a10b2a00b29a0b2990b2980b2940b2910b2900b289,
  0x0b3080b3040b3010b3000b2ff0b2fb0b2fa0b2f90b2f80b2f70b2f50b2f40b2f30b2ef0b2ee0b2ed0b2ec0b2eb0b2e80b2e60b2e50b2e40b2e20b2dd,
  0x0d09c0d09b0d09a0d0990d0980d0970d0960d0950b3650b3640b35f0b35e0b35c0b35b0b3580b3560b3550b3540b31c0b3150b3140b3130b3110b310,
  0xffffffffffffffffffffffffffffff0d0b20d0b10d0b00d0af0d0ae0d0ad0d0ab0d0aa0d0a90d0a70d0a60d0a30d0a20d0a10d0a00d09f0d09e0d09d,
  0x0d0d80d0d70d0d60d0d20d0cf0d0ce0d0cd0d0cc0d0cb0d0ca0d0c70d0c60d0c50d0c30d0c20d0bf0d0be0d0bd0d0bc0d0bb0d0ba0d0b80d0b60d0b3,
  0x0d0f30d0f20d0ee0d0eb0d0ea0d0e90d0e80d0e70d0e60d0e50d0e30d0e20d0e10d0df0d0de0d0dbffffffffffffffffffffffffffffff0d0da0d0d9,
  0x0b3780b3740b3710b3700b36e0b36b0b3690b3670d1040d1030d1020d1010d1000d0ff0d0fe0d0fd0d0fc0d0fb0d0fa0d0f90d0f70d0f60d0f50d0f4,
  0x0b3db0b3d90b3d70b3d50b3d40b3d00b3ce0b3cc0b3cb0b3c80b3c50b3c40b3ac0b3a80b3a10b3a00b3940b3900b38c0b3850b3840b3830b3810b380,
  0x0b4880b4800b46c0b4650b4630b4610b4600b4580b4540b4510b4500b4340b42b0b4290b4280b4200b41c0b4180b4100b3fc0b3e80b3e40b3e00b3dd,
  0x0b5140b4f80b4f10b4ef0b4ed0b4ec0b4e60b4e40b4e30b4e00b4dd0b4dc0b4d50b4d00b4c80b4c40b4c00b4b90b4b70b4b50b4ac0b4a80b4a40b49d,
  0x0d10f0d10e0d10c0d10b0d10a0d1090d1080d1070d1060d1050b5380b5340b5310b5300b52a0b5290b5280b5270b5250b5240b51c0b51b0b5180b515,
  0x0d1210d120ffffffffffffffffffffffffffffff0d11f0d11e0d11d0d11c0d11b0d11a0d1190d1180d1170d1160d1150d1140d1130d1120d1110d110,
  0x0d13e0d13d0d13c0d13b0d1390d1370d1360d1350d1330d1320d12f0d12e0d12d0d12c0d12b0d12a0d1290d1280d1270d1260d1250d1240d1230d122,
  0x0d1590d1580d1570d1560d1550d1530d1520d1510d14f0d14e0d14b0d14a0d1490d1480d1470d1460d1420d13fffffffffffffffffffffffffffffff,
  0x0b5540b5500b54d0b54c0b54b0b5450b5440b5430b5410b5400d16d0d16b0d16a0d1690d1670d1660d1650d1640d1630d1620d1600d15e0d15b0d15a,
  0x0b5cf0b5cd0b5cc0b5c40b5c00b5bd0b5bc0b5bb0b5b50b5b40b5b30b5b10b5b00b5ab0b5aa0b5a80b5a40b5a10b5a00b5610b5600b55f0b55d0b55c,
  0x0b6f40b6f00b6d40b6b10b6ac0b6ab0b6a40b6a00b69d0b69c0b6680b6640b6480b6340b62c0b6250b6180b6140b6110b6100b5ec0b5d80b5d10b5d0,
  0x0b7750b7730b7710b7700b7680b7640b7600b7550b7540b74c0b7480b7440b73b0b7390b7380b7300b72f0b72c0b7290b7280b7050b7010b7000b6f8,
  0x0d1790d1780d1770d1760d1750d1740d1730d1720d1710d1700d16f0d16e0b7970b7960b7920b7910b7900b78f0b78d0b78c0b7840b7800b77d0b77c,
  0x0d18e0d18d0d18c0d18bffffffffffffffffffffffffffffff0d18a0d1890d1870d1860d1850d1830d1820d1810d1800d17f0d17e0d17d0d17b0d17a,
  0xffffffffff0d1a70d1a60d1a50d1a30d1a20d19f0d19e0d19d0d19c0d19b0d19a0d1990d1980d1970d1960d1950d1940d1930d1920d1910d1900d18f,
  0x0d1c30d1c20d1c10d1bf0d1be0d1bd0d1bb0d1b90d1b80d1b70d1b60d1b40d1b20d1af0d1ae0d1ad0d1ac0d1ab0d1aa0d1a9ffffffffffffffffffff,
  0x0b7b80b7b50b7b40b7ad0b7ac0b7ab0b7a90b7a80b7a00b79c0b7990b7980d1cf0d1ce0d1cd0d1cc0d1cb0d1ca0d1c90d1c80d1c70d1c60d1c50d1c4,
  0x0b82c0b8280b8250b8240b81d0b81b0b8190b8180b8100b80c0b8090b8080b8070b8010b8000b7ff0b7fd0b7fc0b7f40b7f00b7ed0b7ec0b7c90b7c7,
  0x0b8b80b8b40b8b00b8a80b88d0b87c0b8780b8710b86f0b86d0b86c0b8640b8600b85d0b85c0b8530b8510b8440b8400b8390b8380b8370b8350b834,
  0x0b9400b93d0b93c0b9200b9180b9040b8fd0b8fb0b8f90b8f80b8f00b8ec0b8e90b8e80b8e10b8df0b8dd0b8d40b8d00b8cc0b8c50b8c30b8c10b8c0,
  0x0d1de0d1dd0d1dc0d1db0d1da0d1d90d1d70d1d60d1d50d1d40d1d30d1d20d1d10d1d00b9690b9680b9600b95c0b9590b9580b9510b94f0b94c0b944,
  0x0d1f00d1ef0d1ee0d1ed0d1ec0d1ebffffffffffffffffffffffffffffff0d1ea0d1e90d1e80d1e70d1e60d1e50d1e40d1e30d1e20d1e10d1e00d1df,
  0xffffffffffffffffffff0d2060d2050d2040d2030d2020d2010d2000d1ff0d1fe0d1fd0d1fc0d1fb0d1fa0d1f90d1f70d1f60d1f50d1f30d1f20d1f1,
  0x0d21f0d21e0d21d0d21c0d21b0d21a0d2190d2180d2170d2160d2150d2140d2130d2120d2110d20f0d20e0d20d0d20c0d20b0d20a0d208ffffffffff,
  0x0b9ac0b98e0b98d0b98a0b9890b9870b9850b9840b97c0b9780b9750b9740b96d0b96b0d2290d2280d2270d2260d2250d2240d2230d2220d2210d220,
  0x0b9e50b9e40b9e30b9e10b9de0b9dd0b9db0b9d90b9d80b9d20b9d10b9d00b9cf0b9ce0b9cc0b9c90b9c80b9c10b9bf0b9bd0b9bc0b9b40b9b00b9ad,
  0x0ba540ba530ba4e0ba4d0ba4b0ba490ba480ba420ba400ba3c0ba390ba380ba150ba080ba010ba000b9fa0b9f90b9f80b9f70b9f50b9f40b9ec0b9e8,
  0x0bab80bab20bab00baac0baab0baa90baa80ba8c0ba870ba850ba840ba830ba780ba740ba710ba700ba690ba680ba670ba650ba640ba5c0ba580ba55,
  0x0d2400d23e0d23b0d23a0d2390d2380d2370d2360d2350d2330d2320d2310d22f0d22e0d22b0d22a0bafc0bad90bad80bac80bac40babd0babb0bab9,
  0x0d2540d2530d2520d2510d2500d24f0d24e0d24dffffffffffffffffffffffffffffff0d24c0d24b0d24a0d2490d2470d2460d2450d2440d2430d242,
  0xffffffffffffffffffffffffffffff0d2680d2670d2660d2650d2630d2620d2610d2600d25f0d25e0d25d0d25b0d25a0d2590d2580d2570d2560d255,
  0x0d2820d27f0d27e0d27d0d27c0d27b0d27a0d2790d2780d2770d2760d2750d2740d2730d2720d2710d2700d26f0d26e0d26d0d26c0d26b0d26a0d269,
  0x0bb3c0bb3b0bb380bb360bb350bb340bb2b0bb290bb200bb1c0bb180bb110bb0f0bb0d0bb040bb000d28c0d28b0d28a0d2890d2870d2860d2850d283,
  0x0bbc40bbc00bbb70bbb40bbac0bba80bba40bb900bb8c0bb880bb6c0bb630bb610bb580bb540bb500bb4f0bb4d0bb490bb470bb450bb440bb3e0bb3d,
  0x0bc1d0bc1c0bc1b0bc180bc170bc160bc150bc140bc110bc0f0bc0d0bc0c0bc0b0bc090bc080bc020bc000bbff0bbfc0bbf90bbf80bbd30bbd00bbc8,
  0x0bc880bc850bc840bc5d0bc500bc4d0bc4c0bc490bc450bc440bc430bc410bc400bc380bc340bc310bc300bc2d0bc290bc270bc250bc240bc1f0bc1e,
  0x0d2a30d2a20d2a10d29f0d29e0d29d0d29b0d29a0d2990d2980d2970d2960d2940d2930d2920d28f0d28e0d28d0bc970bc950bc940bc8e0bc8c0bc8b,
  0x0d2ba0d2b70d2b60d2b50d2b40d2b30d2b20d2b00d2af0d2aeffffffffffffffffffffffffffffff0d2ad0d2ab0d2aa0d2a90d2a80d2a70d2a60d2a5,
  0x0d2d30d2d2ffffffffffffffffffffffffffffff0d2d10d2d00d2cf0d2ce0d2cd0d2cc0d2ca0d2c70d2c60d2c50d2c40d2c30d2c10d2be0d2bd0d2bb,
  0x0d2f20d2ef0d2ee0d2ed0d2ec0d2eb0d2ea0d2e90d2e80d2e70d2e60d2e30d2e20d2e10d2e00d2df0d2de0d2dd0d2db0d2da0d2d90d2d70d2d60d2d5,
  0x0bccf0bccd0bcc40bcc00bcbd0bcbc0bcb50bcb40bcb30bcb10bcb00bca80bca70bca40bca10bca00bc9a0bc990d2fa0d2f90d2f70d2f60d2f50d2f3,
  0x0bd580bd500bd4c0bd490bd480bd400bd2c0bd240bd140bd100bd090bd070bd050bd040bcfc0bcf80bcf60bcf50bcf40bcdc0bcd80bcd50bcd10bcd0,
  0x0bddc0bdd80bdd50bdd40bdb80bdb00bda40bd9c0bd9a0bd990bd950bd930bd910bd900bd8a0bd890bd880bd870bd840bd810bd800bd680bd640bd59,
  0x0be5a0be590be570be550be540be4e0be4c0be480be450be440be1f0be1d0be1c0be140be100be0d0be0c0be050be030be000bdf80bdf40bdf00bde9,
  0x0d3180d3170d3150d3130d3120d3110d30f0d30b0d30a0d3090d3080d3070d3060d3040d3020d2ff0d2fe0d2fd0d2fc0d2fb0be640be610be600be5b,
  0x0d3340d3330d3320d3310d32f0d32e0d32d0d32b0d32a0d3270d3260d324ffffffffffffffffffffffffffffff0d3230d3220d31e0d31b0d31a0d319,
  0x0d34d0d34c0d34b0d34affffffffffffffffffffffffffffff0d3490d3480d3470d3460d3430d3420d3410d3400d33f0d33e0d33a0d3370d3360d335,
  0x0d3650d3640d3630d3620d3610d3600d35f0d35e0d35d0d35c0d35b0d35a0d3590d3580d3570d3560d3550d3540d3530d3520d3510d3500d34f0d34e,
  0x0bea80be990be980be910be900be8f0be8d0be8c0be840be800be7d0be7c0be7b0be750be740be730be710be700be6a0be680d3690d3680d3670d366,
  0x0bf510bf500bf480bf440bf410bf400bf1d0bf1c0bf1b0bf190bf180bf090bf080bf010beec0bee50bee40bee30bee00bed80bed70bed40bed10bed0,
  0x0c0a10c0a00c0980c0940c0910c0900c0690c0680c0600c05c0c0580c0510c03c0bfe10bfdf0bfdc0bfd40bfd00bfcd0bfcc0bfc50bfb00bf940bf55,
  0x0c0dc0c0db0c0d90c0d80c0d00c0cc0c0c90c0c80c0c50c0c10c0c00c0bf0c0bd0c0bc0c0b60c0b50c0b40c0b30c0b00c0af0c0ad0c0ac0c0a50c0a3,
  0x0d3820d3810d37f0d37e0d37b0d37a0d3790d3780d3770d3760d3750d3740d3730d3720d3710d3700d36f0d36e0d36d0d36c0d36b0d36a0c0e40c0dd,
  0x0d39d0d39b0d39a0d3970d3960d3950d3940d3930d3920d38e0d38b0d38a0d3890d388ffffffffffffffffffffffffffffff0d3870d3860d3850d383,
  0x0d3b50d3b30d3b20d3b10d3b00d3afffffffffffffffffffffffffffffff0d3ae0d3ac0d3aa0d3a70d3a60d3a50d3a40d3a30d3a20d3a10d39f0d39e,
  0x0d3d40d3d30d3d20d3d10d3cf0d3ce0d3cd0d3cc0d3cb0d3ca0d3c70d3c60d3c30d3c20d3c10d3c00d3bf0d3be0d3bd0d3bb0d3ba0d3b90d3b70d3b6,
  0x0c12c0c1270c1260c1240c1230c1200c11f0c11e0c11d0c11c0c1150c1100c1080c1040c1000c0f90c0f70c0f50c0f40c0ec0c0e80c0e50d3d60d3d5,
  0x0c1700c1690c1680c1670c1650c1640c15c0c1580c1550c1540c14d0c14c0c14b0c1490c1480c1400c13c0c1390c1380c1360c1310c1300c12f0c12d,
  0x0c1d70c1d40c1cc0c1c80c1c40c1bd0c1b00c1ac0c1a90c1a80c1a50c1a10c19f0c19d0c19c0c1960c1940c1900c18e0c18d0c18c0c1850c1780c174,
  0x0c22d0c22b0c2290c2280c2200c21f0c21c0c2190c2180c2110c20f0c20d0c20c0c2040c2000c1fd0c1fc0c1f30c1f10c1f00c1e80c1e40c1e00c1d8,
  0x0d3f50d3f30d3f20d3f10d3ef0d3ee0d3eb0d3ea0d3e90d3e80d3e70d3e60d3e50d3e40d3e20d3e00d3df0d3de0d3dd0d3dc0d3db0d3da0d3d90d3d7,
  0x0d40c0d40b0d40a0d4090d4070d4060d4050d4040d4030d4020d4000d3fe0d3fb0d3fa0d3f90d3f8ffffffffffffffffffffffffffffff0d3f70d3f6,
  0x0d41f0d41e0d41c0d41b0d41a0d4190d4180d417ffffffffffffffffffffffffffffff0d4160d4150d4140d4130d4120d4110d4100d40f0d40e0d40d,
  0x0d4370d4360d4350d4340d4330d4320d4310d4300d42f0d42e0d42d0d42c0d42b0d42a0d4290d4280d4270d4260d4250d4240d4230d4220d4210d420,
  0x0c29b0c2980c2900c2890c2880c2810c27f0c27d0c27c0c2740c2700c26d0c26c0c2650c2600c2580c2540c2510c2500c2480c2340c2320c2310c22f,
  0x0c2fb0c2f90c2f80c2f60c2f10c2ef0c2ed0c2ec0c2eb0c2e40c2e30c2e00c2dd0c2dc0c2b90c2b70c2b50c2b40c2ad0c2ac0c2a80c2a50c2a40c29d,
  0x0c37c0c3790c3780c3720c3700c36c0c3690c3680c3450c3290c3280c3250c3240c31c0c3180c3150c3140c3130c30d0c30c0c3090c3080c3000c2fc,
  0x0d4390d4380c4300c42c0c4240c4100c4080c3f80c3f50c3f40c3ed0c3e90c3e80c3e20c3e00c3df0c3dc0c3d90c3d80c3c00c38c0c3880c3840c37d,
  0x0d4530d4520d4510d4500d44f0d44e0d44d0d44c0d44b0d44a0d4490d4480d4470d4460d4450d4430d4420d4410d43f0d43e0d43d0d43c0d43b0d43a,
  0x0d4680d4670d4660d4650d4630d4620d4610d45f0d45e0d45d0d45b0d45a0d4590d4580d4570d4560d4550d454ffffffffffffffffffffffffffffff,
  0x0d4810d47e0d47d0d47b0d47a0d4770d4760d4750d4740d473ffffffffffffffffffffffffffffff0d4720d4710d4700d46e0d46c0d46b0d46a0d469,
  0x0c43c0c4340d49d0d49c0d49b0d49a0d4990d4980d4970d4960d4950d4930d4920d4910d4900d48f0d48e0d48c0d48a0d4870d4860d4850d4840d483,
  0x0c50c0c5010c5000c4ff0c4fa0c4f80c4f40c4f10c4f00c4e90c4bc0c4b80c49c0c4940c4800c4790c4750c4740c46c0c4680c4650c4640c4480c43d,
  0x0c5580c5570c5550c5540c5530c54e0c54d0c54c0c54a0c5490c5480c5450c5440c53d0c53b0c5390c5380c5300c52c0c5290c5280c51c0c5140c510,
  0x0c5980c5970c5950c5910c58f0c58d0c58c0c5870c5840c5800c57d0c57c0c5750c5740c5730c5710c5700c5680c5640c5610c5600c55e0c55d0c559,
  0x0d4a10d4a00d49f0d49e0c5ce0c5cc0c5ca0c5c90c5c80c5c70c5c60c5c50c5c40c5be0c5bd0c5bc0c5bb0c5b90c5b80c5b50c5b40c5a90c5a00c59c,
  0xffffffffff0d4b80d4b70d4b60d4b50d4b40d4b30d4b20d4b10d4b00d4af0d4ae0d4ad0d4ac0d4ab0d4aa0d4a80d4a70d4a60d4a50d4a40d4a30d4a2,
  0x0d4cd0d4cb0d4ca0d4c90d4c80d4c70d4c60d4c50d4c40d4c30d4c20d4c10d4c00d4bf0d4be0d4bd0d4bc0d4bb0d4ba0d4b9ffffffffffffffffffff,
  0x0d4e30d4e20d4e10d4e00d4de0d4dd0d4db0d4da0d4d90d4d80d4d70d4d6ffffffffffffffffffffffffffffff0d4d50d4d30d4d20d4d10d4cf0d4ce,
  0x0c5d80c5d40c5d10c5d00d4fc0d4fa0d4f90d4f70d4f60d4f50d4f40d4f30d4f20d4f10d4ef0d4ee0d4ed0d4eb0d4ea0d4e90d4e70d4e60d4e50d4e4,
  0x0c6180c6100c60c0c6080c6070c6060c6050c6010c6000c5ff0c5fe0c5fd0c5fc0c5f70c5f60c5f40c5f00c5ee0c5ed0c5ec0c5e50c5e30c5e10c5e0,
  0x0c6540c6530c6510c6500c6480c6440c6410c6400c63b0c6390c6370c6350c6340c6330c6300c62e0c62d0c62c0c6280c6250c6240c61c0c61b0c619,
  0x0c6b00c6a90c6a70c6a50c6a40c69c0c6980c6950c6940c68d0c68b0c6890c6880c6800c67c0c6790c6780c6710c66f0c66c0c6600c65d0c65c0c655,
  0x0d5030d5020d5010d5000d4ff0d4fe0c6e80c6e10c6e00c6dd0c6dc0c6d40c6d00c6cd0c6cc0c6c50c6c30c6c10c6c00c6ba0c6b90c6b80c6b40c6b1,
  0xffffffffffffffffffff0d51d0d51c0d51b0d51a0d5190d5180d5160d5130d5120d5110d5100d50f0d50e0d50d0d50b0d50a0d5090d5070d5060d505,
  0x0d5330d5320d5310d5300d52f0d52e0d52d0d52c0d52b0d52a0d5290d5280d5270d5260d5250d5240d5230d5220d5210d5200d51f0d51effffffffff,
  0x0d5490d5480d5470d5460d5450d5430d5420d5410d53f0d53e0d53b0d53a0d5390d538ffffffffffffffffffffffffffffff0d5370d5360d5350d534,
  0x0c6fd0c6f90c6f80c6f00c6ec0c6e90d5630d5620d5610d55f0d55e0d55d0d55b0d55a0d5570d5560d5550d5540d5530d5520d5500d54e0d54b0d54a,
  0x0c74d0c74c0c74a0c7440c7400c73d0c73c0c7370c7350c7330c7310c7300c7280c7240c7210c7200c7190c7170c7150c7140c70c0c7080c7050c704,
  0x0c7880c7870c7850c7840c7830c77e0c77d0c77c0c7780c7750c7740c76b0c7680c7600c75c0c7580c7570c7560c7550c7540c7530c7520c7510c74f,
  0x0c7c00c7bf0c7bd0c7bc0c7b40c7b00c7ad0c7ac0c7a60c7a50c7a40c7a30c7a10c7a00c79a0c7980c7970c7960c7940c7910c7900c78e0c78a0c789,
  0x0d5700d56f0d56e0d56c0d56a0d5670d5660d5640c80a0c8080c8040c8010c8000c7ec0c7e80c7e40c7dd0c7d80c7d00c7ce0c7cc0c7c90c7c80c7c1,
  0xffffffffffffffffffffffffffffff0d58b0d58a0d5860d5830d5820d5810d5800d57f0d57e0d57d0d57b0d57a0d5790d5770d5760d5730d5720d571,
  0x0d5a40d5a30d5a20d5a10d5a00d59f0d59e0d59d0d59c0d59b0d59a0d5990d5980d5970d5960d5950d5940d5930d5920d5910d58f0d58e0d58d0d58c,
  0x0d5b70d5b60d5b50d5b40d5b30d5b20d5b10d5b00d5af0d5ae0d5ad0d5ac0d5ab0d5aa0d5a90d5a8ffffffffffffffffffffffffffffff0d5a70d5a6,
  0x0c8200c81d0c81c0c8160c8150c8130c8110c8100d5c70d5c60d5c50d5c40d5c30d5c20d5c10d5c00d5bf0d5be0d5bd0d5bc0d5bb0d5ba0d5b90d5b8,
  0x0c8870c8860c8850c8830c8810c8800c87a0c8780c8740c8710c8700c8540c84d0c84c0c8490c8480c8400c83c0c8380c8310c82f0c82d0c82c0c824,
  0x0c9000c8fd0c8fc0c8f50c8e40c8e10c8e00c8d90c8d70c8d50c8d40c8cc0c8c80c8c40c8bd0c8bc0c8a80c8a10c89f0c89d0c8940c88d0c88c0c88b,
  0x0c98c0c9890c9880c97c0c9740c9700c96c0c9630c9610c9600c9580c9540c9510c9500c9340c92c0c9180c9110c90f0c90d0c90c0c9060c9050c904,
  0x0d5d60d5d50d5d40d5d30d5d10d5cf0d5ce0d5cd0d5cb0d5ca0c9d30c9d10c9d00c9ca0c9c80c9c70c9c40c9c10c9c00c99d0c99b0c9990c9980c990,
  0x0d5f00d5efffffffffffffffffffffffffffffff0d5ee0d5ed0d5eb0d5ea0d5e90d5e70d5e60d5e30d5e20d5e10d5e00d5df0d5de0d5dc0d5da0d5d7,
  0x0d6120d60f0d60e0d60d0d60c0d60b0d60a0d6090d6070d6060d6050d6030d6020d5ff0d5fe0d5fd0d5fc0d5fb0d5fa0d5f80d5f60d5f30d5f20d5f1,
  0x0d62a0d6290d6280d6270d6260d6250d6230d6220d6210d61f0d61e0d61d0d61b0d61a0d6190d6180d6170d616ffffffffffffffffffffffffffffff,
  0x0c9e70c9e40c9e20c9e00c9dd0c9dc0c9da0c9d90c9d60c9d50d63b0d63a0d6370d6360d6350d6340d6330d6320d6310d6300d62f0d62e0d62c0d62b,
  0x0ca5f0ca5d0ca5c0ca540ca500ca4d0ca4c0ca290ca180ca140ca0d0ca0c0ca0b0ca090ca080ca000c9fc0c9f90c9f80c9f10c9f00c9ef0c9ed0c9ec,
  0x0cb180cb140cb100cb080caf40caec0cae00cad90cad80cad30cad10cacf0cacd0cacc0cac40cac00cabd0cabc0ca980ca840ca7d0ca680ca610ca60,
  0x0cc1c0cc140cc100cc0d0cc0c0cbe90cbe70cbe40cbd40cbb80cb9c0cb790cb780cb640cb5d0cb590cb580cb500cb4c0cb490cb480cb410cb210cb20,
  0x0d64e0d64c0d64a0d6470d6460d6440d6430d6420d6410d63f0d63e0d63d0cc3b0cc390cc380cc300cc2e0cc2c0cc290cc280cc270cc220cc210cc1d,
  0x0d6650d6640d6630d662ffffffffffffffffffffffffffffff0d6610d6600d65f0d65e0d65d0d65b0d65a0d6590d6570d6560d6530d6520d6500d64f,
  0xffffffffff0d6800d67f0d67e0d67d0d67c0d67b0d67a0d6790d6780d6770d6760d6750d6730d6720d66f0d66e0d66d0d66c0d66b0d66a0d6680d666,
  0x0d69a0d6990d6980d6970d6960d6950d6930d6920d6910d68f0d68e0d68b0d68a0d6890d6880d6870d6860d6840d6820d681ffffffffffffffffffff,
  0x0cc590cc580cc570cc550cc540cc4c0cc480cc450cc440cc3e0cc3d0cc3c0d6aa0d6a90d6a70d6a60d6a50d6a40d6a30d6a20d6a00d69e0d69c0d69b,
  0x0ccd00ccc90ccc70ccc50ccc40ccbc0ccb80ccb50ccb40ccad0ccac0ccab0cca90cca80cca00cc9c0cc990cc980cc750cc700cc680cc660cc640cc60,
  0x0cd710cd6f0cd6d0cd6c0cd640cd600cd5c0cd390cd2c0cd280cd240cd1d0cd1b0cd190cd180cd100cd0c0cd090cd080cd010ccf00ccec0cce40ccd4,
  0x0ce0c0ce080ce040cdfd0cdfb0cdf90cdf80cdf00cdec0cde80cdd00cdcc0cdc40cdb00cda90cda70cda50cda40cd9c0cd980cd950cd940cd880cd78,
  0x0d6bc0d6ba0d6b80d6b70d6b60d6b50d6b40d6b30d6b20d6b10d6af0d6ae0d6ad0d6ab0ce350ce330ce310ce300ce280ce240ce210ce200ce190ce14,
  0x0d6d30d6d20d6d00d6cf0d6ce0d6cdffffffffffffffffffffffffffffff0d6cb0d6ca0d6c90d6c70d6c60d6c30d6c20d6c10d6c00d6bf0d6be0d6bd,
  0xffffffffffffffffffff0d6ed0d6ec0d6eb0d6ea0d6e90d6e70d6e60d6e50d6e30d6e20d6e10d6df0d6de0d6dd0d6dc0d6db0d6da0d6d80d6d60d6d5,
  0x0d7090d7080d7070d7060d7050d7030d7020d7010d6ff0d6fe0d6fb0d6fa0d6f90d6f80d6f70d6f60d6f40d6f30d6f20d6f10d6ef0d6eeffffffffff,
  0x0ce7c0ce780ce750ce740ce6d0ce6b0ce690ce680ce610ce600ce5f0ce5c0ce590ce580d7140d7130d7120d7100d70f0d70e0d70d0d70c0d70b0d70a,
  0x0cef70cef50cef40ceec0ceeb0cee80cee50cee40cec10cead0ceac0cea50cea40cea30cea10cea00ce980ce940ce910ce900ce890ce870ce850ce84,
  0x0cf640cf5c0cf580cf550cf540cf380cf310cf300cf2f0cf2d0cf2c0cf240cf200cf1c0cf150cf130cf110cf100cf080cf040cf010cf000cef90cef8,
  0x0d0000cffc0cff50cff30cff10cff00cfe80cfe40cfe10cfe00cfc40cfb00cfa80cfa10cf8c0cf850cf800cf780cf740cf710cf700cf690cf670cf65,
  0x0d72a0d7270d7260d7250d7240d7230d7220d7210d71f0d71e0d71d0d71b0d71a0d7170d7160d7150d03c0d0380d0350d0340d02d0d0180d0110d004,
  0x0d7420d7410d7400d73f0d73e0d73d0d73b0d73affffffffffffffffffffffffffffff0d7390d7370d7360d7330d7320d7310d7300d72f0d72e0d72c,
  0xffffffffffffffffffffffffffffff0d75e0d75d0d75c0d75b0d75a0d7550d7530d7520d74f0d74e0d74d0d74c0d74b0d74a0d7480d7460d7450d743,
  0x0d7800d77f0d77e0d77b0d77a0d7790d7780d7770d7760d7750d7730d7720d7710d76f0d76e0d76d0d76b0d76a0d7680d7670d7660d7640d7620d75f,
  0x0d0a40d0810d07d0d07c0d0740d0700d06d0d06c0d0600d0580d0540d0500d0490d0470d0450d0440d78b0d78a0d7870d7860d7850d7840d7830d782,
  0x0d0ef0d0ed0d0ec0d0e40d0e00d0dd0d0dc0d0d50d0d40d0d30d0d10d0d00d0c90d0c80d0c40d0c10d0c00d0b90d0b70d0b50d0b40d0ac0d0a80d0a5,
  0x0d16c0d1680d1610d15f0d15d0d15c0d1540d1500d14d0d14c0d1450d1440d1430d1410d1400d13a0d1380d1340d1310d1300d10d0d0f80d0f10d0f0,
  0x0d2340d2300d22d0d22c0d2100d2090d2070d1f80d1f40d1d80d1c00d1bc0d1ba0d1b50d1b30d1b10d1b00d1a80d1a40d1a10d1a00d1880d1840d17c,
  0x0d7a30d7a20d7a10d7a00d79f0d79e0d79c0d79a0d7970d7960d7950d7940d7930d7920d7910d78f0d78e0d78d0d25c0d2480d2410d23f0d23d0d23c,
  0xffffffffffffffffffffffffffffffffffffffffffffffffffffffffffffffffffffffffffffffffffffffffffffffffffffffffffffffffffffffff,
  0xffffffffffffffffffffffffffffffffffffffffffffffffffffffffffffffffffffffffffffffffffffffffffffffffffffffffffffffffffffffff,
  0xffffffffffffffffffffffffffffffffffffffffffffffffffffffffffffffffffffffffffffffffffffffffffffffffffffffffffffffffffffffff,
  0x0d2c00d2bf0d2bc0d2b90d2b80d2b10d2ac0d2a40d2a00d29c0d2950d2910d2900d2880d2840d2810d2800d264ffffffffffffffffffffffffffffff,
  0x0d31c0d3160d3140d3100d30e0d30d0d30c0d3050d3030d3010d3000d2f80d2f40d2f10d2f00d2e50d2e40d2dc0d2d80d2d40d2cb0d2c90d2c80d2c2,
  0x0d3900d38f0d38d0d38c0d3840d3800d37d0d37c0d3450d3440d33d0d33c0d33b0d3390d3380d3300d32c0d3290d3280d3250d3210d3200d31f0d31d,
  0x0d3f40d3f00d3ed0d3ec0d3e30d3e10d3d80d3d00d3c90d3c80d3c50d3c40d3bc0d3b80d3b40d3ad0d3ab0d3a90d3a80d3a00d39c0d3990d3980d391,
  0xffffffffffffffffffffffffffffffffffffffffffffffffffffffffffffffffffffffffffffffffffffffffffffffffffff0d4010d3ff0d3fd0d3fc,
  0xffffffffffffffffffffffffffffffffffffffffffffffffffffffffffffffffffffffffffffffffffffffffffffffffffffffffffffffffffffffff,
  0xffffffffffffffffffffffffffffffffffffffffffffffffffffffffffffffffffffffffffffffffffffffffffffffffffffffffffffffffffffffff,
  0xffffffffffffffffffffffffffffffffffffffffffffffffffffffffffffffffffffffffffffffffffffffffffffffffffffffffffffffffffffffff,
  0x0d4940d48d0d48b0d4890d4880d4820d4800d47f0d47c0d4790d4780d46f0d46d0d4640d4600d45c0d4440d4400d41d0d408ffffffffffffffffffff,
  0x0d54d0d54c0d5440d5400d53d0d53c0d5170d5150d5140d50c0d5080d5040d4fd0d4fb0d4f80d4f00d4ec0d4e80d4df0d4dc0d4d40d4d00d4cc0d4a9,
  0x0d5c90d5c80d5a50d5900d5890d5880d5870d5850d5840d57c0d5780d5750d5740d56d0d56b0d5690d5680d5650d5600d55c0d5590d5580d5510d54f,
  0x0d6150d6140d6130d6110d6100d6080d6040d6010d6000d5f90d5f70d5f50d5f40d5ec0d5e80d5e50d5e40d5dd0d5db0d5d90d5d80d5d20d5d00d5cc,
  0xffffffffffffffffffffffffffffffffffffffffffffffffffffffffffffffffffffffffffffffffffffffffffffffffffffffffffffff0d6200d61c,
  0xffffffffffffffffffffffffffffffffffffffffffffffffffffffffffffffffffffffffffffffffffffffffffffffffffffffffffffffffffffffff,
  0xffffffffffffffffffffffffffffffffffffffffffffffffffffffffffffffffffffffffffffffffffffffffffffffffffffffffffffffffffffffff,
  0xffffffffffffffffffffffffffffffffffffffffffffffffffffffffffffffffffffffffffffffffffffffffffffffffffffffffffffffffffffffff,
  0x0d6830d6740d6710d6700d6690d6670d65c0d6580d6550d6540d6510d64d0d64b0d6490d6480d6450d6400d63c0d6390d6380d62d0d624ffffffffff,
  0x0d6e80d6e40d6e00d6d90d6d70d6d40d6d10d6cc0d6c80d6c50d6c40d6bb0d6b90d6b00d6ac0d6a80d6a10d69f0d69d0d6940d6900d68d0d68c0d685,
  0x0d7510d7500d7490d7470d7440d73c0d7380d7350d7340d72d0d72b0d7290d7280d7200d71c0d7190d7180d7110d7040d7000d6fd0d6fc0d6f50d6f0,
  0x0d79d0d79b0d7990d7980d7900d78c0d7890d7880d7810d77d0d77c0d7740d7700d76c0d7690d7650d7630d7610d7600d7590d7580d7570d7560d754,
  0xffffffffffffffffffffffffffffffffffffffffffffffffffffffffffffffffffffffffffffffffffffffffffffffffffffffffffffffffffffffff,
  0xffffffffffffffffffffffffffffffffffffffffffffffffffffffffffffffffffffffffffffffffffffffffffffffffffffffffffffffffffffffff,
  0xffffffffffffffffffffffffffffffffffffffffffffffffffffffffffffffffffffffffffffffffffffffffffffffffffffffffffffffffffffffff,
  0xffffffffffffffffffffffffffffffffffffffffffffffffffffffffffffffffffffffffffffffffffffffffffffffffffffffffffffffffffffffff,
  0xffffffffffffffffffffffffffffffffffffffffffffffffffffffffffffffffffffffffffffffffffffffffffffffffffffffffffffffffffffffff,
  0xffffffffffffffffffffffffffffffffffffffffffffffffffffffffffffffffffffffffffffffffffffffffffffffffffffffffffffffffffffffff,
  0xffffffffffffffffffffffffffffffffffffffffffffffffffffffffffffffffffffffffffffffffffffffffffffffffffffffffffffffffffffffff,
  0xffffffffffffffffffffffffffffffffffffffffffffffffffffffffffffffffffffffffffffffffffffffffffffffffffffffffffffffffffffffff,
  0xffffffffffffffffffffffffffffffffffffffffffffffffffffffffffffffffffffffffffffffffffffffffffffffffffffffffffffffffffffffff,
  0xffffffffffffffffffffffffffffffffffffffffffffffffffffffffffffffffffffffffffffffffffffffffffffffffffffffffffffffffffffffff,
  0xffffffffffffffffffffffffffffffffffffffffffffffffffffffffffffffffffffffffffffffffffffffffffffffffffffffffffffffffffffffff,
  0x04f7304f3dffffffffffffffffffffffffffffffffffffffffffffffffffffffffffffffffffffffffffffffffffffffffffffffffffffffffffffff,
  0x08dcf08cc808a36088880885708304082db07a3c075c2073c206b4c067ef067b7067b60668705bb605ac105609054e505475053ef052a0050f905047,
  0x06746063c0061c705e7905e72059e605978058be0520a04f83095a3089d2089ba0811a073cf06bbc061640606a05404053740523b099d508fe608efb,
  0x097a80874e089100845b07aed078a306e34066f70559d04e6b0959308aeb082710826e0809d07c2107aff07a08078f50770b0764e06f970687f067ec,
  0xffffffffffffffffffff09f950945209451090af07d3a077b0076e3075b30751806e1b06a44067d10656206221061be0611f05d4c0582a0574e052d8,
  0xffffffffffffffffffffffffffffffffffffffffffffffffffffffffffffffffffffffffffffffffffffffffffffffffffffffffffffffffffffffff,
  0xffffffffffffffffffffffffffffffffffffffffffffffffffffffffffffffffffffffffffffffffffffffffffffffffffffffffffffffffffffffff,
  0xffffffffffffffffffffffffffffffffffffffffffffffffffffffffffffffffffffffffffffffffffffffffffffffffffffffffffffffffffffffff,
  0x080db0753205cac05323ffffffffffffffffffffffffffffffffffffffffffffffffffffffffffffffffffffffffffffffffffffffffffffffffffff,
  0x092fc08b1b0894108591082210815407f8c07db107d7307ce0075860757a06c5f0617705f4a05f3a05eb705d1705ca1059dc058080525b0959809240,
  0x05ba2055800958b093a70f900084cb082a507b87076d607686075a506f11069ea06539061680613e061370584f051f10500b04ef704ecb09c470964d,
  0x04ef604e7e092f8092450907d0f90208e1e08ddd0795b070ac06e20064e7064da0636e062d205de805c45053bb05028091b507fb907cb30f90105751,
  0xffffffffffffffffffffffffffffff06aa2052920528d0510906840067700509104e5e09a2b0937508e470865408171069570610605efa05dfe05065,
  0xffffffffffffffffffffffffffffffffffffffffffffffffffffffffffffffffffffffffffffffffffffffffffffffffffffffffffffffffffffffff,
  0xffffffffffffffffffffffffffffffffffffffffffffffffffffffffffffffffffffffffffffffffffffffffffffffffffffffffffffffffffffffff,
  0xffffffffffffffffffffffffffffffffffffffffffffffffffffffffffffffffffffffffffffffffffffffffffffffffffffffffffffffffffffffff,
  0x08ff20602f052ab09ed409210077bcffffffffffffffffffffffffffffffffffffffffffffffffffffffffffffffffffffffffffffffffffffffffff,
  0x06f5406c7a0628909d510906308b740898b080a907e6d07d7907504072ac0727d0580509694089a10818806fc006a840683c064ca063ed061a905048,
  0x064ce061ac0617605f9105e9a05883057700537f052cd052c105106050be0501e04fd304eac0938c0925708b1907b9d0614a0517c08a2307f3a07d50,
  0x08f1508b66083960811b0803f0801507d9307d4507af607adf078ec0786c075d9074ca074a50749f070f10708506d8706897066f4066bb0666f0656c,
  0xffffffffffffffffffffffffffffffffffffffff068b00684206212060b805c4605b63059510583a0555304fc209be809a5a0983809803093e109015,
  0xffffffffffffffffffffffffffffffffffffffffffffffffffffffffffffffffffffffffffffffffffffffffffffffffffffffffffffffffffffffff,
  0xffffffffffffffffffffffffffffffffffffffffffffffffffffffffffffffffffffffffffffffffffffffffffffffffffffffffffffffffffffffff,
  0xffffffffffffffffffffffffffffffffffffffffffffffffffffffffffffffffffffffffffffffffffffffffffffffffffffffffffffffffffffffff,
  0x07e6b07cfb07a3d078ce076780754c06eaa068e8ffffffffffffffffffffffffffffffffffffffffffffffffffffffffffffffffffffffffffffffff,
  0x075fc06cbd069c1067af066a0065720654506537062f705eab05c3b05b64059d1056fa054710544a053e9053e409dc40968e08c3f08aa108a0807e7c,
  0x066f20659b054ed09f1309ad809867096c70932e08f9c0f90308aa5088b408831085c1083f0082fd082e60818f080a10800307f9407a3f0777e07690,
  0x0605005de505b540529f051710516c04f9b09aa80f90406c6809be40889e0742806efe068cd068b10660605d1105764056f009d6008c3707a400688f,
  0xffffffffffffffffffffffffffffffffffffffffffffffffff074dc0679c0620805be104e320978f08ca2086a307a7a073d90653b063a7062f10606d,
  0xffffffffffffffffffffffffffffffffffffffffffffffffffffffffffffffffffffffffffffffffffffffffffffffffffffffffffffffffffffffff,
  0xffffffffffffffffffffffffffffffffffffffffffffffffffffffffffffffffffffffffffffffffffffffffffffffffffffffffffffffffffffffff,
  0xffffffffffffffffffffffffffffffffffffffffffffffffffffffffffffffffffffffffffffffffffffffffffffffffffffffffffffffffffffffff,
  0x069e805ed3098460934b0904e08de808ab208a87083d3079d1ffffffffffffffffffffffffffffffffffffffffffffffffffffffffffffffffffffff,
  0x04f8a09002062ec0605d0522e09928095dc08cab089c0083c507f5007ba1074d80742f0704c06b3e068fa0616305bec05b98051a00f905090ed085ff,
  0x09b41069d0062d0061270602a058de0584a0508004e5607f6b0639b053660945b080f107b50073d6072c20709a06d38066e005ee3058d90532105149,
  0x08f03086df0854e081a007ff907d5e077ef0768e072e106a4b068210654e0652a05de705da005b0c055ac054ac050d104ea408f5f080b107d1805b8f,
  0xffffffffffffffffffffffffffffffffffffffffffffffffffffffffffff052fe0517704ff104ec704e5d04e4504e1809bab09a5509903090ca08f4e,
  0xffffffffffffffffffffffffffffffffffffffffffffffffffffffffffffffffffffffffffffffffffffffffffffffffffffffffffffffffffffffff,
  0xffffffffffffffffffffffffffffffffffffffffffffffffffffffffffffffffffffffffffffffffffffffffffffffffffffffffffffffffffffffff,
  0xffffffffffffffffffffffffffffffffffffffffffffffffffffffffffffffffffffffffffffffffffffffffffffffffffffffffffffffffffffffff,
  0x062d8061fc05ed005d8705bc7057a205775056140548e053e5053e305340ffffffffffffffffffffffffffffffffffffffffffffffffffffffffffff,
  0x08b3308862082df0820a08205081fc0800907d7f07a76077e9077bf0740307396072d70707806e9d06c4206bec06bc606b50069cb067e9067b806551,
  0x05800090e108ecd088d907fa407a980541b09eb4097ab097a0083ca05c400570b09f9c09dd709ce909a45099d2092b609264090b10901108ec008cfc,
  0x095d508e760856807357053a50773706dc306b0a06372062f30570805377052f8052380502608eac0828e07aae07a7905f1305bae07a9f0639805c48,
  0xffffffffffffffffffffffffffffffffffffffffffffffffffffffffffffffffffffff08cb406b78066770f9060994b08ecc08a6d06f7006ac30673a,
  0xffffffffffffffffffffffffffffffffffffffffffffffffffffffffffffffffffffffffffffffffffffffffffffffffffffffffffffffffffffffff,
  0xffffffffffffffffffffffffffffffffffffffffffffffffffffffffffffffffffffffffffffffffffffffffffffffffffffffffffffffffffffffff,
  0xffffffffffffffffffffffffffffffffffffffffffffffffffffffffffffffffffffffffffffffffffffffffffffffffffffffffffffffffffffffff,
  0x0898f0847507cfe07ac507aba07845073ea069fb063c60594e0572d053eb0f90709b3cffffffffffffffffffffffffffffffffffffffffffffffffff,
  0x06839065a4061c3052e4052a4050c50969906975068d80621f052870524b0514b06a580f9080921e083cc07b600754705747052fb095a80903508d73,
  0x093260f90a0895f0887f0887e082a9079bd079810743406a8e06611064d20599704eca0f9090994908fd108b39089b2083eb082b907b4b0747e069ff,
  0x05bc4059930594705914057fc057fa0573b05668055dc051800517604f0e04f01080af077dc0516204e9807d6607d1a06c720627106025053ca04f0b,
  0xffffffffffffffffffffffffffffffffffffffffffffffffffffffffffffffffffffffffffffffff065e3065d70628005fcc05e7e05df105d0e05c90,
  0xffffffffffffffffffffffffffffffffffffffffffffffffffffffffffffffffffffffffffffffffffffffffffffffffffffffffffffffffffffffff,
  0xffffffffffffffffffffffffffffffffffffffffffffffffffffffffffffffffffffffffffffffffffffffffffffffffffffffffffffffffffffffff,
  0xffffffffffffffffffffffffffffffffffffffffffffffffffffffffffffffffffffffffffffffffffffffffffffffffffffffffffffffffffffffff,
  0x074a3074820742a074260739806dc706c8206c7d06c2306b3a06a5f068c4068cb0675e0671f0671effffffffffffffffffffffffffffffffffffffff,
  0x09a0e09951098e2093240932108d7708c4808b4f08a180808c0802d0800607f8807dba07d0007b950797a079480794707941078ef078810757f07578,
  0x0f9130f9120f9110f9100f90f0f90e062ff062cf0f90d061e605a1c0f90c0f90b0513a055ab091d106854062ee0540904f7607dca09e9209a6509a0f,
  0x069600678f0f921053570637a0634f0f920096e30f91f0f91e071560f91d066960f91c0f91b0f91a0f91908afe0f9180f9170f9160f9150f914090a3,
  0xffffffffffffffffffffffffffffffffffffffffffffffffffffffffffffffffffffffffffffffffffffffffff0f9250f9240f923075370f92206e73,
  0xffffffffffffffffffffffffffffffffffffffffffffffffffffffffffffffffffffffffffffffffffffffffffffffffffffffffffffffffffffffff,
  0xffffffffffffffffffffffffffffffffffffffffffffffffffffffffffffffffffffffffffffffffffffffffffffffffffffffffffffffffffffffff,
  0xffffffffffffffffffffffffffffffffffffffffffffffffffffffffffffffffffffffffffffffffffffffffffffffffffffffffffffffffffffffff,
  0x0f92e08010067f005948051670f92d04e430f92c0f92b0f92a0f9290f92805a18056ca088720f9270f92607d0dffffffffffffffffffffffffffffff,
  0x0f9370f9360f9350f9340f933074590f9320f9310f9300601205f29059740f92f052aa05bd705be70637b062c80606c05ff5079ca0649a05e7405973,
  0x0f9490f948081660f9470f946060f108fb2081bf0f9450f94406fc30f9430f9420f9410f9400f93f0f93e0f93d0f93c0f93b0f93a0f939099d10f938,
  0x06ce505c3c0f9590f958080fd0f9570f9560f9550f9540f9530f95207d100677b08a2505ae90f9510f9500f94f0f94e0f94d0f94c0f94b0f94a05c3f,
  0xffffffffffffffffffffffffffffffffffffffffffffffffffffffffffffffffffffffffffffffffffffffffffffffffffff083360591a06eba0533f,
  0xffffffffffffffffffffffffffffffffffffffffffffffffffffffffffffffffffffffffffffffffffffffffffffffffffffffffffffffffffffffff,
  0xffffffffffffffffffffffffffffffffffffffffffffffffffffffffffffffffffffffffffffffffffffffffffffffffffffffffffffffffffffffff,
  0xffffffffffffffffffffffffffffffffffffffffffffffffffffffffffffffffffffffffffffffffffffffffffffffffffffffffffffffffffffffff,
  0x0935b0913208892086cb07dde07c1e07aef077ed06e4d06bb506a80065e6065b705f56058c705718055ae04f4604eb604e39ffffffffffffffffffff,
  0x0755306c930931f08b5a08ac70898308541081bd08043075f006fb906f6d06e5b06de1066c7064d4061ba0574d0555609054075b80737a06fbe064bb,
  0x064e10623405f8505e3605cb105c0d059270576e0578804ee309ee8087b307cd607576068e00649e0620705e620585805802055100905d08e0f07b54,
  0x0638906311060bc05f9205ea605d8b05cf605c6005c0e058570583505716052300520005012060b305fb705b8509edb0968a08cb80888b081fa073b3,
  0xffffffffffffffffffffffffffffffffffffffffffffffffffffffffffffffffffffffffffffffffffffffffffffffffffffffffffffff0684306417,
  0xffffffffffffffffffffffffffffffffffffffffffffffffffffffffffffffffffffffffffffffffffffffffffffffffffffffffffffffffffffffff,
  0xffffffffffffffffffffffffffffffffffffffffffffffffffffffffffffffffffffffffffffffffffffffffffffffffffffffffffffffffffffffff,
  0xffffffffffffffffffffffffffffffffffffffffffffffffffffffffffffffffffffffffffffffffffffffffffffffffffffffffffffffffffffffff,
  0x096760934d090fd09053090140900308e4808df308ced089a90840407a3b079b107779076dc071fe06fe406ed406e2106dd806ac2068f9ffffffffff,
  0x04edd07a8104e6d0981308c5a071c90711e06c8c066be065fd06566060c7058a908b8007e9b07be4079bf0776307368072a2072580700606bd2097dc,
  0x0f95a0837307ac7075d8067930675c065970515c0928508463080f407ae5077b3075bc06f7c06d1e068df0685006771061a70540c052d5051cd051ac,
  0x07f85076690f95b061f60558709a300912708b04085e407b490767b071c806a5905d9d05f970920d0906f090410829a081c005c6f0982d0901708c46,
  0xffffffffffffffffffffffffffffffffffffffffffffffffffffffffffffffffffffffffffffffffffffffffffffffffffffffffffffffffffffffff,
  0xffffffffffffffffffffffffffffffffffffffffffffffffffffffffffffffffffffffffffffffffffffffffffffffffffffffffffffffffffffffff,
  0xffffffffffffffffffffffffffffffffffffffffffffffffffffffffffffffffffffffffffffffffffffffffffffffffffffffffffffffffffffffff,
  0xffffffffffffffffffffffffffffffffffffffffffffffffffffffffffffffffffffffffffffffffffffffffffffffffffffffffffffffffffffffff,
  0x08fa30524c09e1e0862d0721b0703e06b1206b040537504e820f95e099f10916a0f95d0843d07d61073de070d906d1b0f95c0908f088f8087ba0863f,
  0x05fa005d0d04f86090de087820746f07405072fc06d6a0671705eca0881f081d8062c9089bd08964085cd07e9c07c4306feb06b160652c064e505d50,
  0x0623e0616e05eec05442052f50513704fb6091cf08f1b08ad20826f07ce707cb107cae06a1106881051c9051690500604eae07565063a0051b70840a,
  0xffffffffff06f230652306200061900974208f620792b0701d06b77066c60529b09ece09e9709a6a09a62095ad08823085dc0792a06ffe06ada065c5,
  0xffffffffffffffffffffffffffffffffffffffffffffffffffffffffffffffffffffffffffffffffffffffffffffffffffffffffffffffffffffffff,
  0xffffffffffffffffffffffffffffffffffffffffffffffffffffffffffffffffffffffffffffffffffffffffffffffffffffffffffffffffffffffff,
  0xffffffffffffffffffffffffffffffffffffffffffffffffffffffffffffffffffffffffffffffffffffffffffffffffffffffffffffffffffffffff,
  0x0748907149ffffffffffffffffffffffffffffffffffffffffffffffffffffffffffffffffffffffffffffffffffffffffffffffffffffffffffffff,
  0x05dba05cba0f95f056f904f3604ee40737507c3e06fc206bae0658205ec9088c2070c806d0c052a305217051bd0934a0902308f26084ee0806f07df4,
  0x0701806f5e06ad3064c4064880f960052de096b7091b4079ae06fa704f8b09f610981809748096f6092340901e0804607fce07f9a07b2d073b20601c,
  0x074cf070270672705f04058df08ad609e9309e7f09304083c907da00797f0788c09e7509dfa09b6f0973208f0508def0865c0860608001076e707210,
  0xffffffffffffffffffff084fc0804a077ad07642071ce0659905ed605bee050da04e86096f708cf408cda08cc2078ca0726207028051210807e07c60,
  0xffffffffffffffffffffffffffffffffffffffffffffffffffffffffffffffffffffffffffffffffffffffffffffffffffffffffffffffffffffffff,
  0xffffffffffffffffffffffffffffffffffffffffffffffffffffffffffffffffffffffffffffffffffffffffffffffffffffffffffffffffffffffff,
  0xffffffffffffffffffffffffffffffffffffffffffffffffffffffffffffffffffffffffffffffffffffffffffffffffffffffffffffffffffffffff,
  0x058d809f8d09b270907cffffffffffffffffffffffffffffffffffffffffffffffffffffffffffffffffffffffffffffffffffffffffffffffffffff,
  0x0786b076240755907460074090700f06e9c06d41069b4067f3065d2052890964b093e4089380851e07e3707d2f0763b06f0f06dda06a1305c6205a41,
  0x083f107dbe07a1c0695e051cc051dc0808b052d2096860f961068170614405f8b08f2a07db806dea05d190502b04f96096780622e0516d0985e08b2c,
  0x091cc088e1088cf0838907fb807f7907c6c075e20f9620748307406072f80728106d6c068a80674e060a705c650550e0540f053980522904fda09675,
  0xffffffffffffffffffffffffffffff0782c09716081e80743306dcb0679709e9f09c57096a308eaa085fa07498071d006f7e0541d09bc9096e2091d0,
  0xffffffffffffffffffffffffffffffffffffffffffffffffffffffffffffffffffffffffffffffffffffffffffffffffffffffffffffffffffffffff,
  0xffffffffffffffffffffffffffffffffffffffffffffffffffffffffffffffffffffffffffffffffffffffffffffffffffffffffffffffffffffffff,
  0xffffffffffffffffffffffffffffffffffffffffffffffffffffffffffffffffffffffffffffffffffffffffffffffffffffffffffffffffffffffff,
  0x075f20746a0646907c9207b2007acbffffffffffffffffffffffffffffffffffffffffffffffffffffffffffffffffffffffffffffffffffffffffff,
  0x0779e0706306f2b06eff066fc066690633d0616205f4e05dd205a290534d04e0709088083ab0819c06f2005e5505bde09ebb09b54099ac078e8078bc,
  0x08f1e083bd0832b0829207f5407db20671b05fd905fd80598404ea10977a0896a0830906cab0672b062b90551c09c3b0994508f130883b085130842c,
  0x076f20731b06c1305b5f09ea509a400964c08c8a0810809b450908108ce308cb707f750716406bcf068850679a0662705bd005a92059b9057cb09099,
  0xffffffffffffffffffffffffffffffffffffffff06ec509eb50976207dec07dbf077200770406c94068c9052c9051950514d08993051aa0840c076df,
  0xffffffffffffffffffffffffffffffffffffffffffffffffffffffffffffffffffffffffffffffffffffffffffffffffffffffffffffffffffffffff,
  0xffffffffffffffffffffffffffffffffffffffffffffffffffffffffffffffffffffffffffffffffffffffffffffffffffffffffffffffffffffffff,
  0xffffffffffffffffffffffffffffffffffffffffffffffffffffffffffffffffffffffffffffffffffffffffffffffffffffffffffffffffffffffff,
  0x06e9f069270669d0660e0547d0540d051a508511ffffffffffffffffffffffffffffffffffffffffffffffffffffffffffffffffffffffffffffffff,
  0x072610725f06bdb06bcd06a21067d0066ae06479064780615505e3d059c6052df0519204fae0888209cf409298091690879f084c20831707791076bf,
  0x05999058930536f08499067260592206c9206b7f09da907a4607766076ee0726706c900672808c8c08b2808b0008305082bc08017077db0773807441,
  0x07e460755d073f70712106bcb06b6606959065e0064ab062c70620a061cb061ae05deb052d909328082d707ad70732b06e3a0677306634063cf05edf,
  0xffffffffffffffffffffffffffffffffffffffffffffffffff065870554f0543b0520e0501109ed8058a809d610972708cbf08aa30856a083020821e,
  0xffffffffffffffffffffffffffffffffffffffffffffffffffffffffffffffffffffffffffffffffffffffffffffffffffffffffffffffffffffffff,
  0xffffffffffffffffffffffffffffffffffffffffffffffffffffffffffffffffffffffffffffffffffffffffffffffffffffffffffffffffffffffff,
  0xffffffffffffffffffffffffffffffffffffffffffffffffffffffffffffffffffffffffffffffffffffffffffffffffffffffffffffffffffffffff,
  0x0726906c95052ff096ef095800868a0805e07d0b07d0a06c76ffffffffffffffffffffffffffffffffffffffffffffffffffffffffffffffffffffff,
  0x0654f061ab0610d060b605cb709ef40976108ff708b0e0858707f8e07c730770906e4406e3c06963068b60672a05fae05f4c05d4b05c3e05a9a05473,
  0x07e1b07c9507b940749e073c006cca06a3806734064b20640f062cd0535a0525d08b100871c05bc60959407de1073c90739f06cef06c11065fc065fb,
  0x078fb078d0076fc076e40762207554073ed06f5806cee069c306591065000642c062cc053db053cd0534a04f34099c1096f908feb08584082360818a,
  0xffffffffffffffffffffffffffffffffffffffffffffffffffffffffffff06f5106e24064a5062d4052c3098ef0981208fd4087e00822c07d460792c,
  0xffffffffffffffffffffffffffffffffffffffffffffffffffffffffffffffffffffffffffffffffffffffffffffffffffffffffffffffffffffffff,
  0xffffffffffffffffffffffffffffffffffffffffffffffffffffffffffffffffffffffffffffffffffffffffffffffffffffffffffffffffffffffff,
  0xffffffffffffffffffffffffffffffffffffffffffffffffffffffffffffffffffffffffffffffffffffffffffffffffffffffffffffffffffffffff,
  0x05e4705c28059a80574a0508d0502309b4309aee09262091b108dcb0767cffffffffffffffffffffffffffffffffffffffffffffffffffffffffffff,
  0x04ff30500d09f9009632090a608b1708a2a0868c084a1082b30822b08180080aa07d21078c506ec20699c0678b06609065c1065b90653e0623f05f77,
  0x0767d06822067cf05e1b04f7004f2f0966a0914d08f2908ce008919088f5088f4080da080cc076c30711906e430676f06392062dc05f98057f90f963,
  0x07bc4072af06cdb06c4e06c3e068b505e06051e1095a507f7007b4f04f10098dc085e90854307e410f9640756a071d40716906a0a05e6109b440767e,
  0xffffffffffffffffffffffffffffffffffffffffffffffffffffffffffffffffffffff07656074a706a97064d8058c105288050fb0743a06cd508303,
  0xffffffffffffffffffffffffffffffffffffffffffffffffffffffffffffffffffffffffffffffffffffffffffffffffffffffffffffffffffffffff,
  0xffffffffffffffffffffffffffffffffffffffffffffffffffffffffffffffffffffffffffffffffffffffffffffffffffffffffffffffffffffffff,
  0xffffffffffffffffffffffffffffffffffffffffffffffffffffffffffffffffffffffffffffffffffffffffffffffffffffffffffffffffffffffff,
  0x09c49077a5052250908a08faf08fa808b8a05f010535e0f96509739095e208617078a7ffffffffffffffffffffffffffffffffffffffffffffffffff,
  0x06b650666e05bf6058310582104fdd09a080992008f2707add079c9075c507501070b3068c5067c40663a0661e05e7705c5b051750500204e1909f08,
  0x08f390898608907085140832f081790798f0670d05fa905b930535c05310050d504f0f08f1408b5c08913088dc083e90752b073e406f7d06e7a06d11,
  0x04fef04ed804e0d09cf3092d20902208702084ec07e2b0742b071a2070fd068d20636705cf005cef05c010594904ff804e760672c09c12099a508f3b,
  0xffffffffffffffffffffffffffffffffffffffffffffffffffffffffffffffffffffffffffffffff05a660592b057e005490054260526f0525605085,
  0xffffffffffffffffffffffffffffffffffffffffffffffffffffffffffffffffffffffffffffffffffffffffffffffffffffffffffffffffffffffff,
  0xffffffffffffffffffffffffffffffffffffffffffffffffffffffffffffffffffffffffffffffffffffffffffffffffffffffffffffffffffffffff,
  0xffffffffffffffffffffffffffffffffffffffffffffffffffffffffffffffffffffffffffffffffffffffffffffffffffffffffffffffffffffffff,
  0x081510815007f3607c3f07b260723606ea506d6e065a706577062760f96605e9c05bcc05b7505b5affffffffffffffffffffffffffffffffffffffff,
  0x05fff0596e05954058b30567405429052060531709ce7099d9096440961c091dc090e808dba08d7408cfb08ce608ca008a03083a908299082400819a,
  0x04e1509d6c07e430787c068da0670b05d29062c205f7f05f1704f5b0f967096f008cc1082ac07d1b07cde07c89076c60711a06c7e066100626e061a4,
  0x0789107812075fa074350f96806cb806bd806bd706bd606bd4069a7067870659006279062490618a060b205e8705a6205983053510532a0531505099,
  0xffffffffffffffffffffffffffffffffffffffffffffffffffffffffffffffffffffffffffffffffffffffffff080a507fe107dcb07c83079d8079d5,
  0xffffffffffffffffffffffffffffffffffffffffffffffffffffffffffffffffffffffffffffffffffffffffffffffffffffffffffffffffffffffff,
  0xffffffffffffffffffffffffffffffffffffffffffffffffffffffffffffffffffffffffffffffffffffffffffffffffffffffffffffffffffffffff,
  0xffffffffffffffffffffffffffffffffffffffffffffffffffffffffffffffffffffffffffffffffffffffffffffffffffffffffffffffffffffffff,
  0x06baf06ab30658c05f6c05b2a056ac09f3b098db0975e0911908cbb08b6c08ab9088e80871a083f2081c20813effffffffffffffffffffffffffffff,
  0x05506053f8053f2050ff04fdf04f7f04f3c04f3a04ed504e9b04e8b04e4d09a010805806c37061910983b08cd308ca7073ad0725d0701506ff106d5c,
  0x073450700906e2306cd706c9906b7b068ad067fb067f6065af0659c063680601d05f9905e2b05df305c0405bfa05beb05a1105962058eb056db055e3,
  0x09e9d099df098fc090aa08fad08d6608cdc08b1d08a5e08a50088df086c7084d10838e0820d0808607d7207d1707be9079c107960079400793e07802,
  0xffffffffffffffffffffffffffffffffffffffffffffffffffffffffffffffffffffffffffffffffffffffffffffffffffff0f96a067140f9690524a,
  0xffffffffffffffffffffffffffffffffffffffffffffffffffffffffffffffffffffffffffffffffffffffffffffffffffffffffffffffffffffffff,
  0xffffffffffffffffffffffffffffffffffffffffffffffffffffffffffffffffffffffffffffffffffffffffffffffffffffffffffffffffffffffff,
  0xffffffffffffffffffffffffffffffffffffffffffffffffffffffffffffffffffffffffffffffffffffffffffffffffffffffffffffffffffffffff,
  0x067490f96b04e09085a90715e06bba0649204e7709730091780849c07b970759d07523073ca06c550656305c710522a05098ffffffffffffffffffff,
  0x060f305ec205ea005e8a05e3805ce005c1905b4005617055aa055460511f050cf050b704e0a098af0921206f81063f70886b085180829f06e17068ee,
  0x0827207d2207a610f96c055c708cfd074bd0585e0971c08cde08c6108a73089f4088f307fd407bb107965076f8072c0072400723d06e5806a6106851,
  0x07d6e07b6e0745e07280068f206816066f8066d9066910654d0637f062920605505f9005eb605e8f05dbc058fb0588507b190f96d075250751f07272,
  0xffffffffffffffffffffffffffffffffffffffffffffffffffffffffffffffffffffffffffffffffffffffffffffffffffffffffffffff07f7207dd6,
  0xffffffffffffffffffffffffffffffffffffffffffffffffffffffffffffffffffffffffffffffffffffffffffffffffffffffffffffffffffffffff,
  0xffffffffffffffffffffffffffffffffffffffffffffffffffffffffffffffffffffffffffffffffffffffffffffffffffffffffffffffffffffffff,
  0xffffffffffffffffffffffffffffffffffffffffffffffffffffffffffffffffffffffffffffffffffffffffffffffffffffffffffffffffffffffff,
  0x084c6078a9077f306f5f06dc506c50067900667306614060dc05e2d0596d0591509f2009ecd092e40901d08a930897f085af08212080e5ffffffffff,
  0x081b30817a07fa807e5507dda079aa0766c074bf0748707444074010717d06e32065cb0657e0624705ba305b0b0558405148050ca04ed90932b091cb,
  0x0526109f67096ea08aaa08a2d0893b0859b0820c06e2b06d2906cc40695405c510536809bae0994d09425092910907808de308a75087ec0861a08239,
  0x07b6c07701076db073f9073290665f0661f06210060fa0602705bac059d3057ce0f96e071ee06d890651d0965d0958308d0d087fe07e9606bb2066b9,
  0xffffffffffffffffffffffffffffffffffffffffffffffffffffffffffffffffffffffffffffffffffffffffffffffffffffffffffffffffffffffff,
  0xffffffffffffffffffffffffffffffffffffffffffffffffffffffffffffffffffffffffffffffffffffffffffffffffffffffffffffffffffffffff,
  0xffffffffffffffffffffffffffffffffffffffffffffffffffffffffffffffffffffffffffffffffffffffffffffffffffffffffffffffffffffffff,
  0xffffffffffffffffffffffffffffffffffffffffffffffffffffffffffffffffffffffffffffffffffffffffffffffffffffffffffffffffffffffff,
  0x06414063830624005de205c1105c0f05bb5058510562f053ec08cb00f96f07d3007b3907a0506d1706b72052e204e160919208aa0081650807208056,
  0x090b5090610900d08a34086070856d0852c07d3907d2007c2b07be007b11076190758e0758f07526071d2070a40701f06eaf06d8806cbc068b30662d,
  0x08a1f06dde0677e0609a05b8b07387098e10905c084c00640d05dfd05b6b0901f08d1608b1607e8c07c9f06d910675f05c6c04fd709a37097f6092b7,
  0xffffffffff0610105e2505cc005cab05b8805ac2058fd05782056da055fd053d704fee091d708870093960788e070510f970052370980c0900108aa6,
  0xffffffffffffffffffffffffffffffffffffffffffffffffffffffffffffffffffffffffffffffffffffffffffffffffffffffffffffffffffffffff,
  0xffffffffffffffffffffffffffffffffffffffffffffffffffffffffffffffffffffffffffffffffffffffffffffffffffffffffffffffffffffffff,
  0xffffffffffffffffffffffffffffffffffffffffffffffffffffffffffffffffffffffffffffffffffffffffffffffffffffffffffffffffffffffff,
  0x0624b0620dffffffffffffffffffffffffffffffffffffffffffffffffffffffffffffffffffffffffffffffffffffffffffffffffffffffffffffff,
  0x07f9e07e6107dac07d8f07cb907aea07a57079c00776107626074b20740707378072e9071e706f3106d1906c3406b8a06a3906578065360641c06388,
  0x053d409b1a09ad3099960980809700096d6096a8096a70968b092b9092960916c090830904208f3808b9008ab008896085ea084da084900833108129,
  0x076fe073e306df306d3506b8906a530696f06812065ec0604205faa05f8705de1083fd08085074b9074210719f06f5a06dd105bbf05b70059190587e,
  0xffffffffffffffffffff05d2705d070926508ff0088530620c099b4098060931e0918708ac408a6208563084f4083400821c0812307d1407b4d077ac,
  0xffffffffffffffffffffffffffffffffffffffffffffffffffffffffffffffffffffffffffffffffffffffffffffffffffffffffffffffffffffffff,
  0xffffffffffffffffffffffffffffffffffffffffffffffffffffffffffffffffffffffffffffffffffffffffffffffffffffffffffffffffffffffff,
  0xffffffffffffffffffffffffffffffffffffffffffffffffffffffffffffffffffffffffffffffffffffffffffffffffffffffffffffffffffffffff,
  0x087680819d0745f05d69ffffffffffffffffffffffffffffffffffffffffffffffffffffffffffffffffffffffffffffffffffffffffffffffffffff,
  0x05e0205c4d05c4e05c3805aa4059cb056360531904f8d0965e0880507e69066070627f05347052dd050e704e5804e1e089720893607fd2062fe06fd5,
  0x062ed0606f05f0f05bd4057f408c7a08c5508ae108a6908a6608996084cd0849407fc50793a077e20731c067f4067be066420662f065bd0604305f11,
  0x0814e07d330795e07533071fc06668065b00613c05bb805a200547b04fe104f8104f38098fe098df08efe08b580875507bd20718406e5c06b960690d,
  0xffffffffffffffffffffffffffffff06c8105fc305c0b05be90608905be605ba40593108fc50f97108f9b08eab08a0a08703085ce085aa08398081e3,
  0xffffffffffffffffffffffffffffffffffffffffffffffffffffffffffffffffffffffffffffffffffffffffffffffffffffffffffffffffffffffff,
  0xffffffffffffffffffffffffffffffffffffffffffffffffffffffffffffffffffffffffffffffffffffffffffffffffffffffffffffffffffffffff,
  0xffffffffffffffffffffffffffffffffffffffffffffffffffffffffffffffffffffffffffffffffffffffffffffffffffffffffffffffffffffffff,
  0x08af6082af0751a0700b06df10f972ffffffffffffffffffffffffffffffffffffffffffffffffffffffffffffffffffffffffffffffffffffffffff,
  0x0580a09d5d09d0909913096c50963f08a1d08859086fe083aa082bd072590621105ce805a250555e0515204fc404e9e06c0f096d90f9730534104ec0,
  0x065a109b9f098540978d096c10773c068480664f0630905cb805b8909f7709c100984e093540910206e2506a02063e106115060e105e4405dbd05cb3,
  0x054c00539309d26079e706b830663b0600f0592e04ef009d28072ce062bc058d3095c7083f40764c0669705eb505dd605ca905535095bc08ecb08b01,
  0xffffffffffffffffffffffffffffffffffffffff0984d0814b07e0a06db2063960627c0538409744096980827e0788d06daf066d60611b05d16057c3,
  0xffffffffffffffffffffffffffffffffffffffffffffffffffffffffffffffffffffffffffffffffffffffffffffffffffffffffffffffffffffffff,
  0xffffffffffffffffffffffffffffffffffffffffffffffffffffffffffffffffffffffffffffffffffffffffffffffffffffffffffffffffffffffff,
  0xffffffffffffffffffffffffffffffffffffffffffffffffffffffffffffffffffffffffffffffffffffffffffffffffffffffffffffffffffffffff,
  0x0591c051b60503b04e5f09e1a09daf07f4c06afbffffffffffffffffffffffffffffffffffffffffffffffffffffffffffffffffffffffffffffffff,
  0x063da0605905b43058e40f9790f97804f6f0f97708e8d085e5084bb0846f082e507d040f9760f97505f31091ce0f974080360723a06930063f6060f9,
  0x057040990a0f97e0967d091c008b930f97d089440f97c07f8a0f97b07a70079b30760d075d20716c0700106d0b06a230694a0f97a066980656d06518,
  0x0513c04ffa0861605b7c08afa08a000710905f660583005043081c606a8d06291061b60510409f6c09b5a099ad08a9e079a60760006f01065bc05fa1,
  0xffffffffffffffffffffffffffffffffffffffffffffffffff0f982059820f9810f9800f97f04f5904e88051860696d05daa06df9063a905944056b4,
  0xffffffffffffffffffffffffffffffffffffffffffffffffffffffffffffffffffffffffffffffffffffffffffffffffffffffffffffffffffffffff,
  0xffffffffffffffffffffffffffffffffffffffffffffffffffffffffffffffffffffffffffffffffffffffffffffffffffffffffffffffffffffffff,
  0xffffffffffffffffffffffffffffffffffffffffffffffffffffffffffffffffffffffffffffffffffffffffffffffffffffffffffffffffffffffff,
  0x0833908245082070f98507916074b50f98406c5d06b5f0f983ffffffffffffffffffffffffffffffffffffffffffffffffffffffffffffffffffffff,
  0x05a1f059f805827056a509a5b090060f98d08b6f07e79075ab0f98c0f98b0661305f79057df0f98a04ea60f9890f9880f987099180f98608f5d08f3f,
  0x0784f0f994071d5071c30f9930715907136070df0f99206f1406df506d9306d8e06cbf06c870693d0f9910633b063500f9900f98f05ef60f98e05bb4,
  0x0f9a10f9a0071b10f99f06d85060850f99e0f99d0f99c09cf60f99b0925b0f99a0f9990f99808edf0884d0f99707e2f0f99607de307b750f9950786f,
  0xffffffffffffffffffffffffffffffffffffffffffffffffffffffffffff082d20827607430071300708e0f9a5067d30f9a40f9a30f9a2053ad095b1,
  0xffffffffffffffffffffffffffffffffffffffffffffffffffffffffffffffffffffffffffffffffffffffffffffffffffffffffffffffffffffffff,
  0xffffffffffffffffffffffffffffffffffffffffffffffffffffffffffffffffffffffffffffffffffffffffffffffffffffffffffffffffffffffff,
  0xffffffffffffffffffffffffffffffffffffffffffffffffffffffffffffffffffffffffffffffffffffffffffffffffffffffffffffffffffffffff,
  0x0f9aa0584b0f9a90f9a808449071c10f9a7066c409e7d09ae5095bb0f9a6ffffffffffffffffffffffffffffffffffffffffffffffffffffffffffff,
  0x07a4e076c8074d40f9ae0745b0f9ad07370071df071500702f0701b06fda06f4106e3606cf306c38069ae069790668e066200f9ac05f7105db80f9ab,
  0x082ae07a620777f0730a06fca06c6d066f3053e1052080f9b50502a04e420f9b40f9b3097190f9b2093480f9b108fce08a60082f10f9b00f9af07e93,
  0x05a1b05967058ba05862055da054330543e05348050b204fc904f0d04e9409810097130f9b8092b30f9b708c6b08b7d08a63088d40f9b608602085dd,
  0xffffffffffffffffffffffffffffffffffffffffffffffffffffffffffffffffffffff06fb306c5a068a706664065ff06556061ca0f9b90609f05be4,
  0xffffffffffffffffffffffffffffffffffffffffffffffffffffffffffffffffffffffffffffffffffffffffffffffffffffffffffffffffffffffff,
  0xffffffffffffffffffffffffffffffffffffffffffffffffffffffffffffffffffffffffffffffffffffffffffffffffffffffffffffffffffffffff,
  0xffffffffffffffffffffffffffffffffffffffffffffffffffffffffffffffffffffffffffffffffffffffffffffffffffffffffffffffffffffffff,
  0x06eab0923a073890734406c8305c4b09f0709c3208aa40870807b7d07352071ac070cfffffffffffffffffffffffffffffffffffffffffffffffffff,
  0x05a4908a1b08778086d9081e507aaa07aa9074e606e2609954096cd0909507fc10767007515074ee064c1058c5051400860a07e1507a690761f07465,
  0x0502d0738b06c6a06789065fa05f80066f0098110962e08c4c0839e081550811807feb07de9078970742c07413073a906d6306900068a105b9b05b8c,
  0x064fe0649306416062d705da20f9bd0f9bc05be5059da059960592d0582f051f9050e50f9bb0f9ba0754f0732505dcd05d6c05916077ee06b6a05a03,
  0xffffffffffffffffffffffffffffffffffffffffffffffffffffffffffffffffffffffffffffffff0f9c107464071ff0f9c006a480f9bf066dc0f9be,
  0xffffffffffffffffffffffffffffffffffffffffffffffffffffffffffffffffffffffffffffffffffffffffffffffffffffffffffffffffffffffff,
  0xffffffffffffffffffffffffffffffffffffffffffffffffffffffffffffffffffffffffffffffffffffffffffffffffffffffffffffffffffffffff,
  0xffffffffffffffffffffffffffffffffffffffffffffffffffffffffffffffffffffffffffffffffffffffffffffffffffffffffffffffffffffffff,
  0x06b320617e09952090800f9c30905908b2008981087ef0f9c2081700800007e5e07e4707aaf07a88ffffffffffffffffffffffffffffffffffffffff,
  0x084c908338080730752c07528074620719406eb606e6706d8c069950614205eb805bb905889057c7052c705197050ad04fd108fb10892507e1f06d74,
  0x079b90799107950076c207440073970725b065f4061820611a05c2405bd305b87053f3053cb053c80512a0507604f5104e8e0f9c4093de0939408e0a,
  0x06a520f9c504e910980a090c107a360715c0682f06631065ed05f67052d6096e9096e809685091ea090f50904708fc20865e085d50828b07fbd07d06,
  0xffffffffffffffffffffffffffffffffffffffffffffffffffffffffffffffffffffffffffffffffffffffffff08553082b8080180718906f9006b9e,
  0xffffffffffffffffffffffffffffffffffffffffffffffffffffffffffffffffffffffffffffffffffffffffffffffffffffffffffffffffffffffff,
  0xffffffffffffffffffffffffffffffffffffffffffffffffffffffffffffffffffffffffffffffffffffffffffffffffffffffffffffffffffffffff,
  0xffffffffffffffffffffffffffffffffffffffffffffffffffffffffffffffffffffffffffffffffffffffffffffffffffffffffffffffffffffffff,
  0x05bc305ac405a9b057a30571205713054e10539f05143096c40718a04e9009b310851a097fb096f2096950904bffffffffffffffffffffffffffffff,
  0x050de0504904f4d0925e08d8a0670809d1b09858096620f9c60906008f4508881082d1074570733f0723006e9006e7206d3906c85063f40613f06028,
  0x04f9104e7309b4f097cb0905508b02089180885b0875f0853f084660840e080c307def0744b0723206e2d066900617005c0905a01059d40570d05371,
  0x06cb906962069610f9c9067da067d40f9c80670906538063c40610906108060df060a005ebe05e7d05e7c05ba505b7a055a90552f0f9c70516a05112,
  0xffffffffffffffffffffffffffffffffffffffffffffffffffffffffffffffffffffffffffffffffffffffffffffffffffff0f9cb06e380f9ca06d27,
  0xffffffffffffffffffffffffffffffffffffffffffffffffffffffffffffffffffffffffffffffffffffffffffffffffffffffffffffffffffffffff,
  0xffffffffffffffffffffffffffffffffffffffffffffffffffffffffffffffffffffffffffffffffffffffffffffffffffffffffffffffffffffffff,
  0xffffffffffffffffffffffffffffffffffffffffffffffffffffffffffffffffffffffffffffffffffffffffffffffffffffffffffffffffffffffff,
  0x0904a08e4208e3008aed08adb08a98088d508438081fe07dad0f9cf0f9ce076520f9cd075310745c0f9cc073370733606fe1ffffffffffffffffffff,
  0x0f9d708d07080e4073a706f640f9d60f9d505c390596b051410f9d40f9d3080b20808906bd30f9d2058090f9d10f9d00936e091c9091490907a0903e,
  0x096700852d06deb0541f04e59096b10928008abe06bb70614706069057a00f9dc0878d07d680701c0620e0807f0f9db0f9da0f9d90f9d80958f09217,
  0x087fb0858f0826407fa9077e30759106bc506905064ec061ff0610f05b9c051000501a04f9d09df9081ba061c9051dd0909106ce3063d6098ee097f3,
  0xffffffffffffffffffffffffffffffffffffffffffffffffffffffffffffffffffffffffffffffffffffffffffffffffffffffffffffff08abc08863,
  0xffffffffffffffffffffffffffffffffffffffffffffffffffffffffffffffffffffffffffffffffffffffffffffffffffffffffffffffffffffffff,
  0xffffffffffffffffffffffffffffffffffffffffffffffffffffffffffffffffffffffffffffffffffffffffffffffffffffffffffffffffffffffff,
  0xffffffffffffffffffffffffffffffffffffffffffffffffffffffffffffffffffffffffffffffffffffffffffffffffffffffffffffffffffffffff,
  0x075700f9e4073e50723e0f9e30f9e20f9e10f9e00602105f5b05f1b05df20f9df059e8059370f9de0f9dd04f0a04ee504e8c091ab08b70ffffffffff,
  0x07fcc07fca076ca070370f9ec0f9eb0990c098f40f9ea0f9e90908708cb308cbd0f9e80f9e708351082e108084080330800c0f9e6079fb0f9e5075cd,
  0x097770976d0f9f108a8d086930f9f00833507d6a0f9ef0f9ee06e6e05fcd05f1505bc5059fb056e0054bd0f9ed053700520304ec104eba08b1a07ffc,
  0x053440516508cc30834f0f9f607a140f9f50f9f406041059d90598a058ec04efb099b9093b00903806ea2065e5058f904f7e04f5a04e000f9f30f9f2,
  0xffffffffffffffffffffffffffffffffffffffffffffffffffffffffffffffffffffffffffffffffffffffffffffffffffffffffffffffffffffffff,
  0xffffffffffffffffffffffffffffffffffffffffffffffffffffffffffffffffffffffffffffffffffffffffffffffffffffffffffffffffffffffff,
  0xffffffffffffffffffffffffffffffffffffffffffffffffffffffffffffffffffffffffffffffffffffffffffffffffffffffffffffffffffffffff,
  0xffffffffffffffffffffffffffffffffffffffffffffffffffffffffffffffffffffffffffffffffffffffffffffffffffffffffffffffffffffffff,
  0x078c1075b5074f7073860716e0709906ecb061480606305b5c05b5705b50059ff059c9054a80523a04ed4082bf05b550526904ecd0f9f90f9f80f9f7,
  0x068e705b7109d72096c00914c0828d07dbd07235070b80707c06628065ab056bc052fa04f5c096cc08cc708aee085c90851708328081ea0800507d2b,
  0x06756066b20638c05f3505e8405e3305c070596c058ef058bb058340532004ed704e08096dc0883607c2a07bb406f5b066ab05c91076de06f7a06b98,
  0xffffffffff09577091ac08d13088dd085cf08594085230846c0838a081e7081df0817807ca707ae00748b073500f9fa0724606f3f06b0c06aa306a1f,
  0xffffffffffffffffffffffffffffffffffffffffffffffffffffffffffffffffffffffffffffffffffffffffffffffffffffffffffffffffffffffff,
  0xffffffffffffffffffffffffffffffffffffffffffffffffffffffffffffffffffffffffffffffffffffffffffffffffffffffffffffffffffffffff,
  0xffffffffffffffffffffffffffffffffffffffffffffffffffffffffffffffffffffffffffffffffffffffffffffffffffffffffffffffffffffffff,
  0x0518d0969cffffffffffffffffffffffffffffffffffffffffffffffffffffffffffffffffffffffffffffffffffffffffffffffffffffffffffffff,
  0x054800513204f4e04f470931a08acd07b8f0722d09f4e09f4b08f0908ca1088c107e210707d06ed306e3d068930683d067500624d05bb005728054c9,
  0x09f5f096ce090b80901908e8708caf08a5b085f708457083f9082e707d3507bb8075bd0732a072d906e1a06cae06a170696e06775062b505e95059d0,
  0x0906908ff908fea08e5f08de108d6408cca08b2b0837b07fdf07e3e07c4d07b1b07a4d076840f9fb072c406ef4065750645805bc205ae10540a052e3,
  0xffffffffffffffffffff06fb106c0806bbf06813062300609b05edb05c5505c08059600587c058610526a0524d0517805168050b304f7a04f43093d1,
  0xffffffffffffffffffffffffffffffffffffffffffffffffffffffffffffffffffffffffffffffffffffffffffffffffffffffffffffffffffffffff,
  0xffffffffffffffffffffffffffffffffffffffffffffffffffffffffffffffffffffffffffffffffffffffffffffffffffffffffffffffffffffffff,
  0xffffffffffffffffffffffffffffffffffffffffffffffffffffffffffffffffffffffffffffffffffffffffffffffffffffffffffffffffffffffff,
  0x0753807530074200714effffffffffffffffffffffffffffffffffffffffffffffffffffffffffffffffffffffffffffffffffffffffffffffffffff,
  0x07aca0766406d59062980622a052070991e0986b0985a096fb0942b09322092930923f08f4908f3e08a6e07e8f07bc607bad07b8b07b4c0767207551,
  0x05ead05e4005b9a059c305448050750505c04ead04e9504e01087760647a063a509ede09b8e0971107c98070b906f3805e9705cbe0536007d7607bc0,
  0x0775b0753a073fd0738e070a10701e06e5e06e1f06de806dc006c4006b6306a8906968067fe0667806676065cc065740653f0633a060c505f8105ef7,
  0xffffffffffffffffffffffffffffff097560970609320092cc09266091d80914a0912d08c9e08aea08a020824707d8e07cbe07a7d07a0b0798e07887,
  0xffffffffffffffffffffffffffffffffffffffffffffffffffffffffffffffffffffffffffffffffffffffffffffffffffffffffffffffffffffffff,
  0xffffffffffffffffffffffffffffffffffffffffffffffffffffffffffffffffffffffffffffffffffffffffffffffffffffffffffffffffffffffff,
  0xffffffffffffffffffffffffffffffffffffffffffffffffffffffffffffffffffffffffffffffffffffffffffffffffffffffffffffffffffffffff,
  0x0557c052910523609f0e098020975cffffffffffffffffffffffffffffffffffffffffffffffffffffffffffffffffffffffffffffffffffffffffff,
  0x052a9051cb0514604fce09f4a0984c0973d0969b096640918d08e4408af8088fd085ba081cd07b2c0796d06fdf068af063d00608c05f1f05e1d05824,
  0x07a20079df0795a079560773a074aa0722a071e50716706f6e06f15069fd068d70689d0671d066f9066fa06641065e9064cd063aa05f6b05f1405632,
  0x05c0a05b58093c308db307c07065cf09ce5096d50963b091e30906d0902008e8108d9908abf08a54086a4085fb0808707e7007d4407cdf07c9707a95,
  0xffffffffffffffffffffffffffffffffffffffff0816b07e3107d9c07d4207a2e0742e06dd9068d50616b060b005f9e05b97050270731d062d905352,
  0xffffffffffffffffffffffffffffffffffffffffffffffffffffffffffffffffffffffffffffffffffffffffffffffffffffffffffffffffffffffff,
  0xffffffffffffffffffffffffffffffffffffffffffffffffffffffffffffffffffffffffffffffffffffffffffffffffffffffffffffffffffffffff,
  0xffffffffffffffffffffffffffffffffffffffffffffffffffffffffffffffffffffffffffffffffffffffffffffffffffffffffffffffffffffffff,
  0x05ea705de60575004f50094180937e08e3508e2affffffffffffffffffffffffffffffffffffffffffffffffffffffffffffffffffffffffffffffff,
  0x070b706f8d06e4a06d3206ce80682a067f1067310665d05eda05dde05b990594f055fe054680546a080c4059dd0505a04f8f04f4f04e3b07f6a0632b,
  0x057c8051c60510104fca07ca507af9099d009444091520914e0903108f3308e8a08d7008a8508a3b086db0821f07da207d2c07d0207c4c07587073e0,
  0x06c410696b06adb0537d091cd0884604ef204e2d08301099ff096cb09075090210882207ae30756f0710c06fec06e9606d5a06a3d0665905cfb05bef,
  0xffffffffffffffffffffffffffffffffffffffffffffffffff053ea04e4b08d0808b49084b807e52075c707511070dd062ef066fe0618e0589e0847a,
  0xffffffffffffffffffffffffffffffffffffffffffffffffffffffffffffffffffffffffffffffffffffffffffffffffffffffffffffffffffffffff,
  0xffffffffffffffffffffffffffffffffffffffffffffffffffffffffffffffffffffffffffffffffffffffffffffffffffffffffffffffffffffffff,
  0xffffffffffffffffffffffffffffffffffffffffffffffffffffffffffffffffffffffffffffffffffffffffffffffffffffffffffffffffffffffff,
  0x0667a065e80652f0646f063070630105fd70574005730054abffffffffffffffffffffffffffffffffffffffffffffffffffffffffffffffffffffff,
  0x07a19076f40907208dbe08d040f9fc08a8c08718082b70829d081f308102080a207d19079570794907825077e506f2c06c9a06c6006b62067b30679d,
  0x079e60778b0771e076e1075b90755b074a107468073cd06eb106d2506b840699b0686d0664b06649064220632f05875055d4055070807707e5407a37,
  0x07a92079e9075be074c60684e05e1905ac9059ea053f104f84097070967309663093ad0903208fb008eeb08cd108a3a088970852f081fb07e1d07e09,
  0xffffffffffffffffffffffffffffffffffffffffffffffffffffffffffff08f2f07ddd06f57057f70f9fd067150659f08fed08dcc08cea086ed081a3,
  0xffffffffffffffffffffffffffffffffffffffffffffffffffffffffffffffffffffffffffffffffffffffffffffffffffffffffffffffffffffffff,
  0xffffffffffffffffffffffffffffffffffffffffffffffffffffffffffffffffffffffffffffffffffffffffffffffffffffffffffffffffffffffff,
  0xffffffffffffffffffffffffffffffffffffffffffffffffffffffffffffffffffffffffffffffffffffffffffffffffffffffffffffffffffffffff,
  0x05dee05d6f055df053c90501f04f9804e1406f84061f205fb5096c6093f6ffffffffffffffffffffffffffffffffffffffffffffffffffffffffffff,
  0x07cb207e8207c1207ac4074da074a8071e606faf064b009f6a0947f0932f07a84077400643e063490906e08eca08e490f9fe07b9a078cb06b6406b21,
  0x05275050210500908b9608b9207ad9065ac061fa061590615805879053c3050ed07d2e0672d064e605bdf052390994c099100947d08d0a08b9a07e98,
  0x05f6905be805bc0057f0050b5084bc083d6082590813907a93076210731606f3206ec4069cd066a2066360660c0655e0613405f7005ee005a3c05531,
  0xffffffffffffffffffffffffffffffffffffffffffffffffffffffffffffffffffffff07b56067f50518a091f5091c708521083dc07db507826063a1,
  0xffffffffffffffffffffffffffffffffffffffffffffffffffffffffffffffffffffffffffffffffffffffffffffffffffffffffffffffffffffffff,
  0xffffffffffffffffffffffffffffffffffffffffffffffffffffffffffffffffffffffffffffffffffffffffffffffffffffffffffffffffffffffff,
  0xffffffffffffffffffffffffffffffffffffffffffffffffffffffffffffffffffffffffffffffffffffffffffffffffffffffffffffffffffffffff,
  0x065a5064f2062d30621a0617d05c3a052540f9ff0501c08655060bd059bb051c408cacffffffffffffffffffffffffffffffffffffffffffffffffff,
  0x09621095e1091e70907708e1008ce4085a60821b07a7f0739406dfa06cc9064c505ddd05929055980534304edf096bb0965f08e600810a0762006ecc,
  0x05e16059be0581e08ac208a7907c6407c3d077bb0751b06dfb06cbe05c16050c90943508f4d08f1f07db406f88064a405fb905586054f2051f8097c6,
  0x0905e0902e08ae607de006eef06d95066ff052430fa0009bd60975108acb083c10807d06df80667405ef308f1208cbc08adc0776b0758a0725206377,
  0xffffffffffffffffffffffffffffffffffffffffffffffffffffffffffffffffffffffffffffffff068a2062db0628406194054e80527f0521d09ad4,
  0xffffffffffffffffffffffffffffffffffffffffffffffffffffffffffffffffffffffffffffffffffffffffffffffffffffffffffffffffffffffff,
  0xffffffffffffffffffffffffffffffffffffffffffffffffffffffffffffffffffffffffffffffffffffffffffffffffffffffffffffffffffffffff,
  0xffffffffffffffffffffffffffffffffffffffffffffffffffffffffffffffffffffffffffffffffffffffffffffffffffffffffffffffffffffffff,
  0x08c820854908349082d5082780809607a0d079d20790e079010785d071260709206a350695a06912ffffffffffffffffffffffffffffffffffffffff,
  0x09283085250807007e3d0646006181060a405bf50585a053e2090a80675105fd605bf8089f808700077d7071ed056d104fc3091ae0918b0916208d85,
  0x0939a09318093100919c0914b0911208ffd08da808acf08429082bb079cb076ba06e6b06a1e069780690e063a8062bd0589c0670005d14050ac064ae,
  0x06c9605fe00514509edc0672e051fa074430693f066250901008ef808e7408e59084c407e2e07bc907b5107afa0795d0755c04e1109c0d09a36096db,
  0xffffffffffffffffffffffffffffffffffffffffffffffffffffffffffffffffffffffffffffffffffffffffff08403081b5060b4088770885d087f2,
  0xffffffffffffffffffffffffffffffffffffffffffffffffffffffffffffffffffffffffffffffffffffffffffffffffffffffffffffffffffffffff,
  0xffffffffffffffffffffffffffffffffffffffffffffffffffffffffffffffffffffffffffffffffffffffffffffffffffffffffffffffffffffffff,
  0xffffffffffffffffffffffffffffffffffffffffffffffffffffffffffffffffffffffffffffffffffffffffffffffffffffffffffffffffffffffff,
  0x053a004ec40507409df209a5f0918908da3081ed081060805a07fe00708a05c3105a360563405439053d608d05ffffffffffffffffffffffffffffff,
  0x08f1c086a9081f407f6e07dfb07dc707a4907a1a07661075f4075d4071be06dc406cbb068940606505e5f05cd9055e40502404f8805c6406e2c060fb,
  0x04ed605feb07a31079e4087c40937c091dd078270741b06d7806c880679505be204fb506f06067d204e03089aa098ed052c50524709f52099b3096c9,
  0x06fc1067dd0666b064e20fa02062580fa010577c05544053530502c099dd099b109640082350695506736062d606253060f0059a5058ae0553e054a4,
  0xffffffffffffffffffffffffffffffffffffffffffffffffffffffffffffffffffffffffffffffffffffffffffffffffffff08a17074380742206fef,
  0xffffffffffffffffffffffffffffffffffffffffffffffffffffffffffffffffffffffffffffffffffffffffffffffffffffffffffffffffffffffff,
  0xffffffffffffffffffffffffffffffffffffffffffffffffffffffffffffffffffffffffffffffffffffffffffffffffffffffffffffffffffffffff,
  0xffffffffffffffffffffffffffffffffffffffffffffffffffffffffffffffffffffffffffffffffffffffffffffffffffffffffffffffffffffffff,
  0x069bb0642d0585408caa0803d07708063a20812b0596a08a9507dbb070ad0705806b4e0619a05f4805766056060545109438ffffffffffffffffffff,
  0x065040649106fa4064c70fa04098b1090b008dc6082d4080ce07b1e06cf006c7006b860614b060200592a053f00514c085690fa0306e6f05e1105b95,
  0x0615d09b2a0900f06295059ac059570507809839090000892a0817f069cc058060901a07d7107b52075db0fa05068760615f08a0e0571f054100514e,
  0x08ca9074e3072480677f05742052240981708ddb082ad07f7707834074360722c06d3e06ce206777064fa064ad0628a05df405a4605761095d607279,
  0xffffffffffffffffffffffffffffffffffffffffffffffffffffffffffffffffffffffffffffffffffffffffffffffffffffffffffffff0921108fa6,
  0xffffffffffffffffffffffffffffffffffffffffffffffffffffffffffffffffffffffffffffffffffffffffffffffffffffffffffffffffffffffff,
  0xffffffffffffffffffffffffffffffffffffffffffffffffffffffffffffffffffffffffffffffffffffffffffffffffffffffffffffffffffffffff,
  0xffffffffffffffffffffffffffffffffffffffffffffffffffffffffffffffffffffffffffffffffffffffffffffffffffffffffffffffffffffffff,
  0x0504f04fbf0610e081a8070f906f8e05f6d08c9d0898707a17072fd0724c06d7f06c9b06557060960550404f690634c053ed0516b0962affffffffff,
  0x0965b095890853d080ba0658305f0a05ee205e6305b160542008a550840d067b005e730576a08cb609a19097ad0904d07fe907de807bc70724706241,
  0x089120888d084b208461082de0812f080de07832075b106d6606ce10fa0606355062b10629b0601605e0305703054fa054860530f0530d0530504f48,
  0x09a43098c4098c708c790886807968074e206f0206a19067530615305f6a0527d04ff50fa070720607011066dd066b405e4509b91098fd092ea0900b,
  0xffffffffffffffffffffffffffffffffffffffffffffffffffffffffffffffffffffffffffffffffffffffffffffffffffffffffffffffffffffffff,
  0xffffffffffffffffffffffffffffffffffffffffffffffffffffffffffffffffffffffffffffffffffffffffffffffffffffffffffffffffffffffff,
  0xffffffffffffffffffffffffffffffffffffffffffffffffffffffffffffffffffffffffffffffffffffffffffffffffffffffffffffffffffffffff,
  0xffffffffffffffffffffffffffffffffffffffffffffffffffffffffffffffffffffffffffffffffffffffffffffffffffffffffffffffffffffffff,
  0x0999d082fe07b460758b07562073cc06ccc05fc505f3c05339096420907f088ab076ae075b2062ab05f7c099ae098a808c4a08af70695307a1f054c1,
  0x0608d0606805bd209db408b140865005b78058d109c150971e0905008cc008766083770745506cb30663005ec80590f053a604f5504e0b0903c04e4f,
  0x096770929c0826607dd806db506abb0558a05563054b80542b051fd08f4405272097d309650095920959107ff007f550701a06fa306f2206c57065f1,
  0xffffffffff0822a0809b07f3806e2f06c86068410676d062970605205df705ae6059ee04f0904ea20965c095d4095a4086e4076d2054c80540809e79,
  0xffffffffffffffffffffffffffffffffffffffffffffffffffffffffffffffffffffffffffffffffffffffffffffffffffffffffffffffffffffffff,
  0xffffffffffffffffffffffffffffffffffffffffffffffffffffffffffffffffffffffffffffffffffffffffffffffffffffffffffffffffffffffff,
  0xffffffffffffffffffffffffffffffffffffffffffffffffffffffffffffffffffffffffffffffffffffffffffffffffffffffffffffffffffffffff,
  0x0fa090fa08ffffffffffffffffffffffffffffffffffffffffffffffffffffffffffffffffffffffffffffffffffffffffffffffffffffffffffffff,
  0x0674f05e780501606838052be09ab8099ed0908208ae708a72089e3087f90702306d7706977061c805bb305b690595a05793054b30505504ea509805,
  0x072000595509a57096aa06b4708ed20737b06af6061b208a310865b0589f05653099990995709909097ff09115073e6056ae0541104eab0884c08347,
  0x05b510986f0924908ce20fa0a088520823707e2307d6207d430774d07729073fe073b907384070ab06ceb0665b061f805f2605cf404fd40976908d6b,
  0xffffffffffffffffffff0578b052110514404ea809830092cf083a20810708105072f906d790633e05cfd0593e0535404fe005acc098010884007a74,
  0xffffffffffffffffffffffffffffffffffffffffffffffffffffffffffffffffffffffffffffffffffffffffffffffffffffffffffffffffffffffff,
  0xffffffffffffffffffffffffffffffffffffffffffffffffffffffffffffffffffffffffffffffffffffffffffffffffffffffffffffffffffffffff,
  0xffffffffffffffffffffffffffffffffffffffffffffffffffffffffffffffffffffffffffffffffffffffffffffffffffffffffffffffffffffffff,
  0x0700506ece06cc205f62ffffffffffffffffffffffffffffffffffffffffffffffffffffffffffffffffffffffffffffffffffffffffffffffffffff,
  0x0547c04e9204e4e0978b091af08e4a08559066b306167060e005f570516e099a8093a3090a20900808861087a20834a07469073e907192070af07050,
  0x0795c07693074e00745a07425072d00705d06fe906fe006f9406ef806e5606dcf06d6906beb066670660a062480623605f2705cb50597d058fa058d5,
  0x05ffd09b420743f06e3e06df70660f05a5a0917706216060d10986509800093ac08c6a08b77087740865f0864e084bf0846b082a6080e107e1e07cca,
  0xffffffffffffffffffffffffffffff075750706b06a3a05b050548c0531609d3b08a0c0867907d05070d806d2a06cd306c5e05f18054c407b0f060da,
  0xffffffffffffffffffffffffffffffffffffffffffffffffffffffffffffffffffffffffffffffffffffffffffffffffffffffffffffffffffffffff,
  0xffffffffffffffffffffffffffffffffffffffffffffffffffffffffffffffffffffffffffffffffffffffffffffffffffffffffffffffffffffffff,
  0xffffffffffffffffffffffffffffffffffffffffffffffffffffffffffffffffffffffffffffffffffffffffffffffffffffffffffffffffffffffff,
  0x08b4108a71083ef082b1079be0798dffffffffffffffffffffffffffffffffffffffffffffffffffffffffffffffffffffffffffffffffffffffffff,
  0x09a690908407d08074b00716506e19068530666506b61063db060a305e7b05ba6059500559a04e3807a6b078bb078ba0652b064f40fa0b0977408ca8,
  0x07bc1076870749c0714c06f6206ec906e5f06cc1069a506644066430614c06130060f60604d05fa805e4c051f0095ca08c410733e06ed106d3b09c25,
  0x086d408334081be07e6a0736a0707006fae06dee06a9c0670306666061f7060940606205f8a05efb056de0532f09ec30968d09051087570835207c27,
  0xffffffffffffffffffffffffffffffffffffffff06dc606d8d0689f066c9065850654805b5d05686054ee0940406a6b05b96073720528308cc408aa8,
  0xffffffffffffffffffffffffffffffffffffffffffffffffffffffffffffffffffffffffffffffffffffffffffffffffffffffffffffffffffffffff,
  0xffffffffffffffffffffffffffffffffffffffffffffffffffffffffffffffffffffffffffffffffffffffffffffffffffffffffffffffffffffffff,
  0xffffffffffffffffffffffffffffffffffffffffffffffffffffffffffffffffffffffffffffffffffffffffffffffffffffffffffffffffffffffff,
  0x0540e0539a0501904faf09a4d09175080b40723bffffffffffffffffffffffffffffffffffffffffffffffffffffffffffffffffffffffffffffffff,
  0x084310714a06684055a7085a80668808a13085b0071fb0718f07104058ce05864052f3052db09005073dd071660673d05f8c05e3f055c5055890543c,
  0x080f806d3605308051f60514709df808b4e060640866707566070cb0643a04f1109ebe08f1d08af10714706689063ee05fbd05f5906bc10559905349,
  0x05b09059ec056cd0566b0559c051de050d60820807fd506d3d060700543806b4606b3d06b2008a1607d0705c7905403075d50709806b230661509ed1,
  0xffffffffffffffffffffffffffffffffffffffffffffffffff08a7007fb207a00079a7072a7071ba071b907199066e60665e06231061980619905e0c,
  0xffffffffffffffffffffffffffffffffffffffffffffffffffffffffffffffffffffffffffffffffffffffffffffffffffffffffffffffffffffffff,
  0xffffffffffffffffffffffffffffffffffffffffffffffffffffffffffffffffffffffffffffffffffffffffffffffffffffffffffffffffffffffff,
  0xffffffffffffffffffffffffffffffffffffffffffffffffffffffffffffffffffffffffffffffffffffffffffffffffffffffffffffffffffffffff,
  0xffffffffffffffffffffffffffffffffffffffffffffffffffffffffffffffffffffffffffffffffffffffffffffffffffffffffffffffffffffffff,
  0xffffffffffffffffffffffffffffffffffffffffffffffffffffffffffffffffffffffffffffffffffffffffffffffffffffffffffffffffffffffff,
  0xffffffffffffffffffffffffffffffffffffffffffffffffffffffffffffffffffffffffffffffffffffffffffffffffffffffffffffffffffffffff,
  0xffffffffffffffffffffffffffffffffffffffffffffffffffffffffffffffffffffffffffffffffffffffffffffffffffffffffffffffffffffffff,
  0xffffffffffffffffffffffffffffffffffffffffffffffffffffffffffff]

/-- `index_code_point_euc_kr` (lib/whatwg/encoding/indexes_code_point.cpp:6), 23940 entries. -/
def cpEucKr : Table := ⟨20, 23940, cpEucKrData⟩

/-- Rows of `index_pointer_euc_kr_0`. -/
def ptr0EucKrData : Nat := pack 480 [
  0x000d7000d0000c6000bf000be000bd000bc000ba000b9000b8000b7000b6000b4000b3000b2000b1000b0000ae000ad000aa000a8000a7000a4000a1,
  0x00153001520014b0014a001490014200141001400013f00138001330013200131001270012600111000fe000f8000f7000f0000e6000df000de000d8,
  0x0039f0039e0039d0039c0039b0039a003990039800397003960039500394003930039200391002dd002db002da002d9002d8002d0002c70016700166,
  0x003bf003be003bd003bc003bb003ba003b9003b8003b7003b6003b5003b4003b3003b2003b1003a9003a8003a7003a6003a5003a4003a3003a1003a0,
  0x0041d0041c0041b0041a0041900418004170041600415004140041300412004110041000401003c9003c8003c7003c6003c5003c4003c3003c1003c0,
  0x0043500434004330043200431004300042f0042e0042d0042c0042b0042a004290042800427004260042500424004230042200421004200041f0041e,
  0x0044d0044c0044b0044a004490044800447004460044500444004430044200441004400043f0043e0043d0043c0043b0043a00439004380043700436,
  0x02103020ac020840208302082020810207f020740203b020330203202030020260202502021020200201d0201c020190201802015004510044f0044e,
  0x02170021690216802167021660216502164021630216202161021600215e0215d0215c0215b02154021530212b021260212202121021160211302109,
  0x022030220202200021d4021d202199021980219702196021950219402193021920219102190021790217802177021760217502174021730217202171,
  0x0226102260022520223d0223c02235022340222e0222c0222b0222a02229022280222702225022200221e0221d0221a022110220f0220b0220802207,
  0x0246c0246b0246a0246902468024670246602465024640246302462024610246002312022a502299022870228602283022820226b0226a0226502264,
  0x024a2024a1024a00249f0249e0249d0249c0248202481024800247f0247e0247d0247c0247b0247a0247902478024770247602475024740246e0246d,
  0x024d4024d3024d2024d1024d0024b5024b4024b3024b2024b1024b0024af024ae024ad024ac024ab024aa024a9024a8024a7024a6024a5024a4024a3,
  0x025020250102500024e9024e8024e7024e6024e5024e4024e3024e2024e1024e0024df024de024dd024dc024db024da024d9024d8024d7024d6024d5,
  0x0252202521025200251f0251e0251d0251c0251b0251a025190251802517025160251502514025130251202511025100250f0250e0250d0250c02503,
  0x0253a025390253802537025360253502534025330253202531025300252f0252e0252d0252c0252b0252a02529025280252702526025250252402523,
  0x025a6025a5025a4025a3025a1025a0025920254b0254a025490254802547025460254502544025430254202541025400253f0253e0253d0253c0253b,
  0x0261c0260f0260e0260602605025d1025d0025cf025ce025cb025c8025c7025c6025c1025c0025bd025bc025b7025b6025b3025b2025a9025a8025a7,
  0x0300d0300c0300b0300a0300903008030030300203001030000266d0266c0266a026690266802667026650266402663026610266002642026400261e,
  0x03051030500304f0304e0304d0304c0304b0304a03049030480304703046030450304403043030420304103015030140301303011030100300f0300e,
  0x030690306803067030660306503064030630306203061030600305f0305e0305d0305c0305b0305a0305903058030570305603055030540305303052,
  0x03081030800307f0307e0307d0307c0307b0307a030790307803077030760307503074030730307203071030700306f0306e0306d0306c0306b0306a,
  0x030a6030a5030a4030a3030a2030a1030930309203091030900308f0308e0308d0308c0308b0308a0308903088030870308603085030840308303082,
  0x030be030bd030bc030bb030ba030b9030b8030b7030b6030b5030b4030b3030b2030b1030b0030af030ae030ad030ac030ab030aa030a9030a8030a7,
  0x030d6030d5030d4030d3030d2030d1030d0030cf030ce030cd030cc030cb030ca030c9030c8030c7030c6030c5030c4030c3030c2030c1030c0030bf,
  0x030ee030ed030ec030eb030ea030e9030e8030e7030e6030e5030e4030e3030e2030e1030e0030df030de030dd030dc030db030da030d9030d8030d7,
  0x031400313f0313e0313d0313c0313b0313a031390313803137031360313503134031330313203131030f6030f5030f4030f3030f2030f1030f0030ef,
  0x0315803157031560315503154031530315203151031500314f0314e0314d0314c0314b0314a031490314803147031460314503144031430314203141,
  0x031700316f0316e0316d0316c0316b0316a031690316803167031660316503164031630316203161031600315f0315e0315d0315c0315b0315a03159,
  0x0318803187031860318503184031830318203181031800317f0317e0317d0317c0317b0317a031790317803177031760317503174031730317203171,
  0x03211032100320f0320e0320d0320c0320b0320a032090320803207032060320503204032030320203201032000318e0318d0318c0318b0318a03189,
  0x0326c0326b0326a032690326803267032660326503264032630326203261032600321c0321b0321a0321903218032170321603215032140321303212,
  0x0338a033890338803384033830338203381033800327f0327b0327a032790327803277032760327503274032730327203271032700326f0326e0326d,
  0x033a2033a1033a00339f0339e0339d0339c0339b0339a033990339803397033960339503394033930339203391033900338f0338e0338d0338c0338b,
  0x033ba033b9033b8033b7033b6033b5033b4033b3033b2033b1033b0033af033ae033ad033ac033ab033aa033a9033a8033a7033a6033a5033a4033a3,
  0x033dd033dc033db033d8033d6033d3033d0033cf033ca033c9033c8033c7033c6033c5033c4033c3033c2033c1033c0033bf033be033bd033bc033bb,
  0x04e4504e4304e4204e3b04e3904e3804e3204e2d04e1e04e1904e1804e1604e1504e1404e1104e0d04e0b04e0a04e0904e0804e0704e0304e0104e00,
  0x04e9104e9004e8e04e8c04e8b04e8804e8604e8204e7e04e7704e7604e7304e6d04e6b04e5f04e5e04e5d04e5904e5804e5604e4f04e4e04e4d04e4b,
  0x04ecb04eca04ec704ec404ec104ec004eba04eb604eae04ead04eac04eab04ea804ea604ea504ea404ea204ea104e9e04e9b04e9804e9504e9404e92,
  0x04f0f04f0e04f0d04f0b04f0a04f0904f0104efb04ef704ef604ef204ef004ee504ee404ee304edf04edd04ed904ed804ed704ed604ed504ed404ecd,
  0x04f6904f5c04f5b04f5a04f5904f5504f5104f5004f4f04f4e04f4d04f4804f4704f4604f4304f3d04f3c04f3a04f3804f3604f3404f2f04f1104f10,
  0x04fb504faf04fae04f9d04f9b04f9804f9604f9104f8f04f8d04f8b04f8a04f8804f8604f8404f8304f8104f7f04f7e04f7a04f7604f7304f7004f6f,
  0x04ffa04ff804ff504ff304ff104fef04fee04fe104fe004fdf04fdd04fda04fd704fd404fd304fd104fce04fca04fc904fc404fc304fc204fbf04fb6,
  0x0503b0502d0502c0502b0502a0502805027050260502405023050210501f0501e0501c0501a050190501605012050110500d0500b050090500605002,
  0x050b5050b3050b2050ad050ac0509905098050910508d050850508005078050760507505074050650505c0505a050550504f05049050480504705043,
  0x0511f051120510905106051040510105100050ff050fb050f9050ed050e7050e5050de050da050d6050d5050d1050cf050ca050c9050c5050be050b7,
  0x0516705165051620515c051520514e0514d0514c0514b0514905148051470514605145051440514305141051400513c0513a05137051320512a05121,
  0x051ac051aa051a5051a00519705195051920518d0518a05186051800517c05178051770517605175051710516e0516d0516c0516b0516a0516905168,
  0x05207052060520305200051fd051fa051f9051f8051f6051f1051f0051e1051de051dd051dc051cd051cc051cb051c9051c6051c4051bd051b7051b6,
  0x0524d0524c0524b0524a05247052430523b0523a05239052380523705236052300522e0522a0522905225052240521d05217052110520e0520a05208,
  0x052a4052a3052a00529f0529b05292052910528d052890528805287052830527f0527d05275052720526f0526a05269052610525d0525b0525605254,
  0x052f5052f3052e4052e3052e2052df052de052dd052db052d9052d8052d6052d5052d2052cd052c9052c7052c5052c3052c1052be052ab052aa052a9,
  0x0534305341053400533f053390532f0532a05323053210532005319053170531605315053100530f0530d0530805305052ff052fe052fb052fa052f8,
  0x0537d05377053750537405371053700536f0536805366053600535e0535c0535a05357053540535305352053510534d0534a05349053480534705344,
  0x053e3053e2053e1053db053d7053d6053d4053cd053cb053ca053c9053c8053c3053bb053ad053a6053a5053a00539f0539a0539805393053840537f,
  0x05411054100540f0540e0540d0540c0540a05409054080540405403053f8053f3053f2053f1053f0053ef053ed053ec053eb053ea053e9053e5053e4,
  0x0547c0547b0547505473054710546a05468054510544a05448054420543e0543c0543b0543905438054330542b0542905426054200541f0541d0541b,
  0x054f2054ee054ed054e8054e5054e1054c9054c8054c4054c1054c0054bd054b8054b3054ac054ab054a8054a4054900548e0548c05486054800547d,
  0x05589055870558605584055800557c055630555e05556055530554f05546055440553e05535055310552f0551c055100550e055070550605504054fa,
  0x0560905606055fe055fd055e4055e3055df055dc055da055d4055c7055c5055ae055ac055ab055aa055a9055a70559d0559c0559a05599055980558a,
  0x056f0056e0056de056db056da056d1056cd056ca056bc056b4056ae056ac056a505686056740566b05668056530563605634056320562f0561705614,
  0x05751057500574e0574d0574a0574705742057400573b057300572d057280571f057180571605713057120570d0570b057080570405703056fa056f9,
  0x057f4057f0057e0057df057ce057cb057c8057c7057c3057a3057a2057a0057930578b05788057820577c05775057700576e0576a057660576405761,
  0x0584b0584a0583a058350583405831058300582f0582a0582705824058210581e0580a058090580805806058050580205800057fc057fa057f9057f7,
  0x058ae058a9058a80589f0589e0589c058930588905885058830587e0587c05879058750586405862058610585e0585a058580585705854058510584f,
  0x0590f058fd058fb058fa058f9058ef058ec058eb058e4058df058de058d9058d8058d5058d3058d1058ce058c7058c5058c1058be058bb058ba058b3,
  0x05951059500594f0594e059490594805947059440593e05937059310592e0592d0592b0592a0592905927059220591c0591a05919059160591505914,
  0x059990599705996059930598a0598405983059820597d0597805974059730596e0596d0596c0596b0596a0596705962059600595a059570595505954,
  0x059f8059ee059ec059ea059e8059e6059dd059dc059da059d9059d4059d3059d1059d0059cb059c9059c6059c3059be059bb059b9059ac059a8059a5,
  0x05aa405a9b05a9a05a9205a6605a6205a5a05a4905a4605a4105a3c05a3605a2905a2505a2005a1f05a1c05a1b05a1805a1105a0305a01059ff059fb,
  0x05b5c05b5a05b5805b5705b5505b5405b5105b5005b4305b4005b2a05b1605b0c05b0b05b0905b0505ae905ae605ae105acc05ac905ac405ac205ac1,
  0x05b9805b9705b9605b9505b9305b8f05b8c05b8b05b8905b8805b8705b8505b7c05b7a05b7805b7505b7105b7005b6b05b6905b6405b6305b5f05b5d,
  0x05bc505bc405bc305bc205bc005bbf05bb905bb805bb605bb505bb405bb305bb005bae05bac05ba605ba505ba405ba305ba205b9c05b9b05b9a05b99,
  0x05bf605bf505bef05bee05bec05beb05be905be805be705be605be505be405be205be105bdf05bde05bd705bd405bd305bd205bd005bcc05bc705bc6,
  0x05c3e05c3c05c3b05c3a05c3905c3805c3105c2805c2405c1905c1605c1105c0f05c0e05c0d05c0b05c0a05c0905c0805c0705c0405c0105bfa05bf8,
  0x05cab05ca905ca105c9105c9005c7905c7105c6f05c6c05c6505c6405c6205c6005c5b05c5505c5105c4e05c4d05c4b05c4805c4605c4505c4005c3f,
  0x05d1605d1405d1105d0e05d0d05d0705cfd05cfb05cf605cf405cf005cef05ce805ce005cd905cc005cbe05cba05cb805cb705cb505cb305cb105cac,
  0x05ddd05dd605dd205dcd05dbd05dbc05dba05db805daa05da205da005d9d05d8b05d8705d6f05d6c05d6905d5005d4c05d4b05d2905d2705d1905d17,
  0x05e1b05e1905e1605e1105e0c05e0605e0305e0205dfe05dfd05df705df405df305df205df105dee05deb05de805de705de605de505de205de105dde,
  0x05e7805e7705e7405e7305e7205e6305e6205e6105e5f05e5505e4c05e4705e4505e4405e4005e3f05e3d05e3805e3605e3305e2d05e2b05e2505e1d,
  0x05ec205ebe05eb805eb705eb605eb505ead05eab05ea705ea605ea005e9c05e9a05e9705e9505e8f05e8a05e8705e8405e7e05e7d05e7c05e7b05e79,
  0x05f1305f1105f0f05f0a05f0405f0105efb05efa05ef705ef605ef305eec05ee305ee205ee005edf05edb05eda05ed605ed305ed005eca05ec905ec8,
  0x05f6705f6605f6205f5b05f5905f5705f5605f4e05f4c05f4a05f4805f3c05f3a05f3505f3105f2905f2705f2605f1f05f1b05f1805f1705f1505f14,
  0x05f9905f9805f9705f9205f9105f9005f8c05f8b05f8a05f8705f8505f8105f8005f7f05f7c05f7905f7705f7105f7005f6d05f6c05f6b05f6a05f69,
  0x05fff05ffd05ff505feb05fe005fd905fd805fd705fd605fcd05fcc05fc505fc305fbd05fb905fb705fb505fae05faa05fa905fa805fa105fa005f9e,
  0x0606406063060620605d060590605506052060500604d0604306042060410602f0602a06028060270602506021060200601d0601c06016060120600f,
  0x060b3060b2060b0060a7060a4060a3060a00609f0609b0609a06096060940608d0608c0608906085060700606f0606d0606c0606a060690606806065,
  0x06109061080610606101060fb060fa060f9060f6060f3060f1060f0060e1060e0060df060dc060da060d1060c7060c5060bd060bc060b8060b6060b4,
  0x0615806155061530614c0614b0614a061480614706144061420613f0613e0613c061370613406130061270611f0611b0611a061150610f0610e0610d,
  0x06199061980619406191061900618e0618a06182061810617e0617d0617706176061700616e0616b06168061670616406163061620615f0615d06159,
  0x061fc061fa061f8061f7061f6061f2061e6061cb061ca061c9061c8061c7061c3061be061ba061b6061b2061ae061ac061ab061a9061a7061a40619a,
  0x062400623f0623e062360623406231062300622e0622a062210621f0621a062160621206211062100620e0620d0620c0620a062080620706200061ff,
  0x0629b06298062970629506292062910628a0628906284062800627f0627c0627906276062710626e06258062530624d0624b06249062480624706241,
  0x062ec062dc062db062d9062d8062d7062d6062d4062d3062d2062d0062cf062cd062cc062c9062c8062c7062c2062bd062bc062b9062b5062b1062ab,
  0x0636706355063500634f0634c063490633e0633d0633b0633a0632f0632b06311063090630706301062ff062fe062f7062f3062f1062ef062ee062ed,
  0x063c0063aa063a9063a8063a7063a5063a2063a1063a00639b0639806396063920638c0638906388063830637f0637b0637a06377063720636e06368,
  0x0643e0643a0642d0642c064220641c0641706416064140640f0640d063f7063f6063f4063ee063ed063e1063db063da063d6063d0063cf063c6063c4,
  0x064c5064c4064c1064bb064b2064b0064ae064ad064ab064a5064a40649e0649a064930649206491064880647a06479064780646f064690646006458,
  0x0652a065230651d065180650406500064fe064fa064f4064f2064ec064e7064e6064e5064e2064e1064da064d8064d4064d2064ce064cd064ca064c7,
  0x0656d0656c0656606563065620655e0655706556065510654f0654e0654d06548065450653f0653e0653b065390653806537065360652f0652c0652b,
  0x065ac065ab065a7065a5065a4065a10659f0659c0659b065990659706591065900658c065870658506583065820657e0657806577065750657406572,
  0x065fa065f4065f1065ed065ec065e9065e8065e6065e5065e3065e0065d7065d2065cf065cc065cb065c5065c1065bd065bc065b9065b7065b0065af,
  0x0662f0662d066280662706625066200661f0661e06615066140661306611066100660f0660e0660c0660a066090660706606065ff065fd065fc065fb,
  0x0666906668066670666606665066640665f0665e0665d0665b066590664f0664b06649066440664306642066410663b0663a06636066340663106630,
  0x066ae066ab066a2066a00669d06698066970669606691066900668e066890668806687066840667a06678066770667606674066730666f0666e0666b,
  0x066fa066f9066f8066f7066f4066f3066f2066f0066e6066e0066dd066dc066d9066d6066c9066c7066c6066c4066be066bb066b9066b4066b3066b2,
  0x0672e0672d0672c0672b0672a0672806727067260671f0671e0671d0671b0671706715067140670d0670b06709067080670306700066ff066fe066fc,
  0x0677b06777067750677306771067700676f0676d0675f0675e0675c067560675306751067500674f0674e06749067460673d0673a067360673406731,
  0x067d1067d0067cf067c4067be067b8067b7067b6067b3067b0067af0679d0679c0679a067970679506793067900678f0678b06789067870677f0677e,
  0x0682f0682a068220682106817068160681306812067fe067fb067f6067f5067f4067f3067f1067f0067ef067ec067e9067dd067da067d4067d3067d2,
  0x0689d0689706894068930688f06885068810687f068760686d068540685306851068500684e06848068430684206841068400683d0683c0683906838,
  0x068e0068df068da068d8068d7068d5068d2068cd068cb068c9068c5068c4068b6068b5068b3068b1068b0068af068ad068a8068a7068a2068a10689f,
  0x069600695e0695a06959069570695506954069530694a0693f0693d0693006927069120690e0690d0690506900068fa068f9068f2068ee068e8068e7,
  0x069cc069cb069c3069c1069bb069b4069ae069a7069a50699c0699b06995069790697806977069750696f0696e0696d0696b06968069630696206961,
  0x06a4806a4406a3d06a3a06a3906a3806a3506a2306a2106a1f06a1e06a1906a1706a1306a1106a0a06a02069ff069fd069fb069ea069e8069d0069cd,
  0x06adb06ada06ad306ac306ac206abb06ab306aa306aa206a9c06a9706a8e06a8d06a8906a8406a8006a6b06a6106a5f06a5906a5806a5306a5206a4b,
  0x06b6406b6306b6206b6106b5f06b5006b4e06b4c06b4706b4606b3e06b3d06b3a06b3206b2306b2106b2006b1606b1206b0c06b0a06b0406afb06af6,
  0x06bbf06bbc06bba06bb706bb506bb206baf06bae06b9e06b9806b9606b8a06b8906b8606b8406b8306b7f06b7b06b7806b7706b7206b6a06b6606b65,
  0x06c3e06c3806c3706c3406c2306c1306c1106c0f06c0806bec06beb06bdb06bd806bd706bd606bd406bd306bd206bcf06bcd06bcb06bc606bc506bc1,
  0x06c8306c8206c8106c7e06c7d06c7a06c7606c7206c7006c6d06c6a06c6806c6006c5f06c5e06c5d06c5a06c5706c5506c5006c4e06c4206c4106c40,
  0x06cbf06cbe06cbd06cbc06cbb06cb906cb806cb306cae06cab06c9b06c9a06c9906c9606c9506c9406c9306c9206c9006c8c06c8806c8706c8606c85,
  0x06d1706d1106d0c06d0b06cf306cf006cef06cee06ceb06ce806ce506ce306ce206ce106cdb06cd706cd506cd306ccc06cca06cc906cc406cc206cc1,
  0x06d6c06d6a06d6906d6606d6306d5c06d5a06d5906d4106d3e06d3d06d3b06d3906d3806d3606d3506d3206d2a06d2906d2706d2506d1e06d1b06d19,
  0x06dc606dc506dc406dc306dc006db506db206daf06d9506d9306d9106d8e06d8d06d8c06d8906d8806d8706d8506d7f06d7906d7806d7706d7406d6e,
  0x06e1a06e1906e1706dfb06dfa06df906df806df706df506df306df106dee06deb06dea06de806de106dde06dda06dd906dd806dd106dcf06dcb06dc7,
  0x06e4d06e4a06e4406e4306e3e06e3d06e3c06e3a06e3806e3606e3406e3206e2f06e2d06e2c06e2b06e2606e2506e2406e2306e2106e2006e1f06e1b,
  0x06eb106eaf06eab06eaa06ea506ea206e9f06e9d06e9c06e9606e9006e7a06e7306e7206e6f06e6e06e6b06e6706e5f06e5e06e5c06e5b06e5806e56,
  0x06f1506f1406f1106f0f06f0606f0206f0106eff06efe06ef806ef406eef06ed406ed306ed106ece06ecc06ecb06ec906ec506ec406ec206eba06eb6,
  0x06f7a06f7006f6e06f6d06f6406f6206f5f06f5e06f5b06f5a06f5806f5706f5406f5106f4106f3f06f3806f3206f3106f2c06f2b06f2306f2206f20,
  0x06fc306fc206fc106fc006fbe06fb906fb306fb106faf06fae06fa706fa406fa306f9706f9406f9006f8e06f8d06f8806f8406f8106f7e06f7d06f7c,
  0x0701b0701a0701807015070110700f0700b0700907006070050700106ffe06ff106fef06fec06feb06fe906fe406fe106fe006fdf06fda06fd506fca,
  0x0708e0708a070850707d0707c07078070700706b070630705d0705807051070500704c0703e070370702f0702807027070230701f0701e0701d0701c,
  0x070fd070f9070f1070df070dd070d9070d8070cf070cb070c8070b9070b8070b7070b3070af070ad070ac070ab070a4070a10709a070990709807092,
  0x071670716607165071640715e0715c0715907156071500714e0714c0714a0714907147071360713007126071210711e0711a071190710c0710907104,
  0x071d0071ce071c9071c8071c3071c1071be071ba071b9071b1071ac071a20719f0719907194071920718f0718a07189071840717d0716e0716c07169,
  0x072360723507232072300722d0722c0722a0721b072100720607200071ff071fe071fc071fb071ee071ed071e7071e6071e5071df071d5071d4071d2,
  0x07281072800727d0727907272072690726707262072610725f0725d0725b0725907258072520724c072480724707246072400723e0723d0723b0723a,
  0x07329073250731d0731c0731b073160730a072fd072fc072f9072f8072e9072e1072d9072d7072d0072ce072c4072c2072c0072af072ac072a7072a2,
  0x0738b073890738707386073840737b0737a073780737507372073700736a0736807357073520735007345073440733f0733e07337073360732b0732a,
  0x073e0073de073dd073d9073d6073cf073cd073cc073ca073c9073c2073c0073b9073b3073b2073ad073a9073a70739f073980739707396073940738e,
  0x07426074250742207421074200741b07413074090740707406074050740307401073fe073fd073f9073f7073ed073ea073e9073e6073e5073e4073e3,
  0x0745b0745a0745907457074550744b074440744307441074400743f0743a0743807436074350743407433074300742f0742e0742c0742b0742a07428,
  0x074a5074a3074a10749f0749e0749c074980748b074890748707483074820747e0746f0746a0746907468074650746407462074600745f0745e0745c,
  0x0750407501074f7074ee074e6074e3074e2074e0074dc074da074d8074d4074cf074ca074c6074bf074bd074b9074b5074b2074b0074aa074a8074a7,
  0x07553075510754f0754c075470753a0753807537075330753207531075300752c0752b075280752607525075230751f0751b0751a075180751507511,
  0x0759d075910758f0758e0758b0758a07587075860757f0757a075780757607575075700756f0756a0756607565075620755d0755c0755b0755907554,
  0x075f2075f0075e2075db075d9075d8075d5075d4075d2075cd075c7075c5075c2075be075bd075bc075b9075b8075b5075b3075b2075b1075ab075a5,
  0x07672076700766c07669076640766107656076520764e0764c076420763b07626076240762207621076200761f076190760d07600075fc075fa075f4,
  0x076de076dc076db076d6076d2076ca076c8076c6076c3076c2076bf076ba076ae07693076900768e0768707686076840767e0767d0767c0767b07678,
  0x077400773c0773a077380773707729077200771e0770b07709077080770407701076fe076fc076f8076f4076f2076ee076e7076e4076e3076e1076df,
  0x077e2077dc077db077d7077bf077bc077bb077b3077b0077ad077ac077a50779e077910778b0777f0777e077790776b0776607763077610775b0774d,
  0x07887078810787c0786f0786c0786b0785d0784f0784507834078320782c0782707826078250781207802077f3077ef077ee077ed077e9077e5077e3,
  0x0790e07901078fb078f5078ef078ec078e8078d0078ce078cb078ca078c5078c1078bc078bb078ba078a9078a7078a307897078910788e0788d0788c,
  0x0797a0796d0796807965079600795e0795d0795c0795b0795a07957079560795007949079480794707941079400793e0793a0792c0792b0792a07916,
  0x079d5079d2079d1079cb079ca079c9079c1079c0079bf079be079bd079b9079b3079b1079ae079aa079a7079a6079910798f0798e0798d079810797f,
  0x07a3b07a3707a3607a3107a2e07a2007a1f07a1c07a1a07a1907a1707a1407a0d07a0b07a0807a0507a00079fb079e9079e7079e6079e4079df079d8,
  0x07a9207a8807a8407a8107a7f07a7d07a7a07a7907a7607a7407a7007a6b07a6907a6207a6107a5707a4e07a4d07a4907a4607a4007a3f07a3d07a3c,
  0x07aef07aed07aea07ae507ae307ae007adf07add07ad907ad707acb07aca07ac707ac507ac407aba07aaf07aae07aaa07aa907a9f07a9807a9507a93,
  0x07b5407b5207b5107b5007b4f07b4d07b4c07b4b07b4907b4607b3907b2d07b2c07b2607b2007b1e07b1b07b1907b1107b0f07aff07afa07af907af6,
  0x07bc707bc607bc407bc107bc007bb807bb407bb107bad07ba107b9d07b9a07b9707b9507b9407b8f07b8b07b8707b7d07b7507b6e07b6c07b6007b56,
  0x07c8907c8307c7307c6c07c6407c6007c4d07c4c07c4307c3f07c3e07c3d07c2b07c2a07c2707c2107c1e07c1207c0707be907be407be007bd207bc9,
  0x07d0407d0207d0007cfe07cfb07ce707ce007cdf07cde07cd607cca07cbe07cb907cb307cb207cb107cae07ca707ca507c9f07c9807c9707c9507c92,
  0x07d3507d3307d3007d2f07d2e07d2c07d2b07d2207d2107d2007d1b07d1a07d1907d1807d1707d1407d1007d0d07d0b07d0a07d0807d0707d0607d05,
  0x07d9307d8f07d8e07d7f07d7907d7607d7307d7207d7107d6e07d6a07d6807d6607d6207d6107d5e07d5007d4607d4507d4407d4307d4207d3a07d39,
  0x07de007dde07ddd07dda07dd807dd607dcb07dca07dc707dbf07dbe07dbd07dbb07dba07db807db507db407db207db107dad07dac07da207da007d9c,
  0x07e3e07e3d07e3707e3107e2f07e2e07e2b07e2307e2107e1f07e1e07e1d07e1b07e1507e0a07e0907dfb07df407def07dec07de907de807de307de1,
  0x07e9c07e9b07e9807e9607e9307e8f07e8c07e8207e7c07e7907e7007e6d07e6b07e6a07e6907e6107e5e07e5507e5407e5207e4707e4607e4307e41,
  0x07fa407f9e07f9a07f9407f8e07f8c07f8a07f8807f8507f7907f7707f7507f7207f7007f6e07f6b07f6a07f5507f5407f5007f4c07f3a07f3807f36,
  0x080010800007ffc07ff907ff007feb07fe907fe107fe007fdf07fd507fd407fd207fce07fcc07fca07fc507fc107fbd07fb907fb807fb207fa907fa8,
  0x08072080700806f0805e0805a08058080560804a08046080430803f0803d08036080330802d080180801708015080100800c08009080060800508003,
  0x080b4080b2080b1080af080aa080a9080a5080a2080a10809d0809b080960808c0808b08089080870808608085080840807f0807e0807d0807708073,
  0x0811b0811a081180810a0810808107081060810508102080fd080f8080f4080f1080e5080e4080e1080de080db080da080ce080cc080c4080c3080ba,
  0x0818a08188081800817f0817a081790817808171081700816b0816608165081550815408151081500814e0814b0813e081390812f0812b0812908123,
  0x081ea081e8081e7081e5081e3081df081d8081cd081c6081c2081c0081bf081be081bd081ba081b5081b3081a8081a3081a00819d0819c0819a0818f,
  0x08236082350822c0822b0822a082210821f0821e0821c0821b082120820d0820c0820a082080820708205081fe081fc081fb081fa081f4081f3081ed,
  0x082a50829f0829d0829a08299082920828e0828d0828b0827e082780827608272082710826f0826e0826608264082590824708245082400823908237,
  0x082e1082df082de082db082d7082d5082d4082d2082d1082bf082bd082bc082bb082b9082b8082b7082b3082b1082af082ae082ad082ac082a9082a6,
  0x08347083400833908338083360833508334083310832f0832b0832808317083090830508304083030830208301082fe082fd082f1082e7082e6082e5,
  0x083cc083ca083c9083c5083c1083bd083ab083aa083a9083a20839e08398083960838e0838a083890837b083770837308352083510834f0834a08349,
  0x084490843d08438084310842c084290840e0840d0840c0840a0840408403083fd083f9083f4083f2083f1083f0083ef083eb083e9083dc083d6083d3,
  0x084c6084c4084c2084c0084bf084bc084bb084b8084b2084a10849c0849908494084900847a084750846f0846c0846b0846608463084610845b08457,
  0x0853f0853d0852f0852d0852c0852508523085210851e0851a0851808517085140851308511084fc084f4084ee084ec084da084d1084cd084cb084c9,
  0x085ba085b0085af085aa085a9085a8085a60859b08594085910858f08587085840856d0856a08569085680856308559085530854e085490854308541,
  0x0862d0861a08617086160860a086070860608602085ff085fb085fa085f7085ea085e9085e5085e4085dd085dc085d5085cf085ce085cd085c9085c1,
  0x086e4086df086db086d9086d4086cb086c7086a9086a4086a3086930868c0868a08679086670865f0865e0865c0865b0865508654086500864e0863f,
  0x087ba087b3087a20879f0878d0878208778087760877408768087660875f08757087550874e0871c0871a0871808708087030870208700086fe086ed,
  0x0885b088590885708853088520884d0884c08846088400883b088360883108823088220881f08805087fe087fb087f9087f2087ef087ec087e0087c4,
  0x088c2088c1088b4088ab0889e0889708896088920888d0888b0888808882088810887f0887e0887708872088700886b088680886308862088610885d,
  0x08938089360892a08925089190891808913089120891008907088fd088f8088f5088f4088f3088e8088e1088df088dd088dc088d9088d5088d4088cf,
  0x089d2089c0089bd089ba089b2089aa089a9089a108996089930898f0898b089870898608983089810897f089720896a089640895f08944089410893b,
  0x08a3608a3408a3108a2d08a2a08a2508a2308a1f08a1d08a1b08a1808a1708a1608a1308a0e08a0c08a0a08a0808a0308a0208a00089f8089f4089e3,
  0x08a8d08a8c08a8708a8508a7908a7508a7308a7208a7108a7008a6e08a6d08a6908a6608a6308a6208a6008a5e08a5b08a5508a5408a5008a3b08a3a,
  0x08acf08acd08acb08ac708ac408ac208abf08abe08abc08ab908ab208ab008aaa08aa808aa608aa508aa408aa308aa108aa008a9e08a9808a9508a93,
  0x08b1408b1008b0e08b0408b0208b0108b0008afe08afa08af808af708af608af108aee08aed08aeb08aea08ae708ae608ae108adc08adb08ad608ad2,
  0x08b7408b7008b6f08b6c08b6608b5c08b5a08b5808b4f08b4e08b4908b4108b3908b3308b2c08b2b08b2808b2008b1d08b1b08b1a08b1908b1708b16,
  0x08c8208c7a08c7908c6b08c6a08c6108c5a08c5508c4c08c4a08c4808c4608c4108c3f08c3708b9a08b9608b9308b9208b9008b8a08b8008b7d08b77,
  0x08cbf08cbd08cbc08cbb08cb808cb708cb608cb408cb308cb008caf08cac08cab08caa08ca908ca808ca708ca208ca108ca008c9e08c9d08c8c08c8a,
  0x08cfd08cfc08cfb08cf408ced08cea08ce608ce408ce308ce208ce008cde08cdc08cda08cd308cd108cca08cc808cc708cc408cc308cc208cc108cc0,
  0x08dc608dbe08dba08db308da808da308d9908d8a08d8508d7708d7408d7308d7008d6b08d6608d6408d1608d1308d0d08d0a08d0808d0708d0508d04,
  0x08e5908e4a08e4908e4808e4708e4408e4208e3508e3008e2a08e1e08e1008e0f08e0a08df308def08de808de308de108ddd08ddb08dcf08dcc08dcb,
  0x08f0508f0308efe08efb08ef808eeb08edf08ed208ecd08ecc08ecb08eca08ec008eac08eab08eaa08e8d08e8a08e8708e8108e7608e7408e6008e5f,
  0x08f4908f4508f4408f3f08f3e08f3b08f3908f3808f3308f2f08f2a08f2908f2708f2608f1f08f1e08f1d08f1c08f1b08f1508f1408f1308f1208f09,
  0x08fed08feb08fea08fe608fd408fd108fce08fc508fc208fb208fb108fb008faf08fad08fa808fa608fa308f9c08f9b08f6208f5f08f5d08f4e08f4d,
  0x0901e0901d0901a0901909017090150901409011090100900f0900d0900b0900809006090050900309002090010900008ffd08ff908ff708ff208ff0,
  0x09055090540905309051090500904e0904d0904b0904a0904709042090410903e0903c090380903509032090310902e090230902209021090200901f,
  0x09084090830908209081090800907f0907d0907c0907a090780907709075090720906f0906e0906d090690906309061090600905e0905d0905c09059,
  0x090f5090ed090e8090e1090de090ca090c1090b8090b5090b1090b0090af090aa090a8090a6090a3090a20909909095090910908f0908a0908809087,
  0x09189091870917809177091750916c0916a0916909162091520914e0914d0914c0914b0914a09149091320912d0912709119091150911209102090fd,
  0x091dc091d8091d7091d1091d0091cf091ce091cd091cc091cb091c9091c7091c0091b5091b4091b1091af091ae091ac091ab0919c091920918d0918b,
  0x092660926509264092620925e0925b092570924909245092400923f0923a092340921e092170921209211092100920d091f5091ea091e7091e3091dd,
  0x0931e0931a093180931009304092fc092f8092ea092e4092d2092cf092cc092b9092b7092b6092b30929c09298092960929309291092850928309280,
  0x0939a09396093940938c0937e0937c093750936e0935b093540934d0934b0934a093480932f0932e0932b0932809326093240932209321093200931f,
  0x095770947f0947d0945b09452094510944409438094350942b094250941809404093f6093e4093e1093de093d1093c3093b0093ad093ac093a7093a3,
  0x095dc095d6095d5095d4095ca095c7095bc095bb095b1095ad095a8095a5095a4095a309598095940959309592095910958f0958b095890958309580,
  0x0966409663096620965f0965e0965d0965c0965b096500964d0964c0964b0964409642096400963f0963b096320962e0962a096210961c095e2095e1,
  0x096aa096a8096a7096a30969c0969b096990969809695096940968e0968d0968b0968a09686096850967d0967809677096760967509673096700966a,
  0x096ea096e9096e8096e3096e2096dc096db096d9096d6096d5096ce096cd096cc096cb096c9096c7096c6096c5096c4096c1096c0096bb096b7096b1,
  0x0974809744097420973d097390973209730097270971e0971c09719097160971309711097070970609700096fb096f9096f7096f6096f2096f0096ef,
  0x097f6097f3097dc097d3097cb097c6097ad097ab097a8097a00978f0978d0978b0977a09777097740976d0976909762097610975e0975c0975609751,
  0x0984c098460983b0983909838098300982d0981809817098130981209811098100980c0980a09808098060980509803098020980109800097ff097fb,
  0x098f4098ef098ee098ed098e2098e1098df098dc098db098c7098c4098b1098af098a80986f0986b09867098650985e0985a09858098540984e0984d,
  0x0999909996099570995409952099510994d0994c0994b099490994509928099200991e0991809913099100990c0990a0990909903098fe098fd098fc,
  0x09a0e09a0809a01099ff099f1099ed099df099dd099d9099d5099d2099d1099d0099c1099b9099b4099b3099b1099ae099ad099ac099a8099a50999d,
  0x09ad809ad409ad309ab809aa809a6a09a6909a6509a6209a5f09a5b09a5a09a5709a5509a4d09a4509a4309a4009a3709a3609a3009a2b09a1909a0f,
  0x09be409bd609bc909bae09bab09b9f09b9109b8e09b6f09b5a09b5409b4f09b4509b4409b4309b4209b4109b3c09b3109b2a09b2709b1a09aee09ae5,
  0x09d5d09d5109d3b09d2809d2609d1b09d0909cf609cf409cf309ce909ce709ce509c5709c4909c4709c3b09c3209c2509c1509c1209c1009c0d09be8,
  0x09e9f09e9d09e9709e9309e9209e7f09e7d09e7909e7509e1e09e1a09dfa09df909df809df209dd709dc409db409daf09da909d7209d6c09d6109d60,
  0x09f4b09f4a09f3b09f2009f1309f0e09f0809f0709ef409ee809ede09edc09edb09ed809ed409ed109ece09ecd09ec309ebe09ebb09eb509eb409ea5,
  0x0ac0b0ac0a0ac090ac080ac070ac060ac050ac040ac030ac020ac010ac0009f9c09f9509f9009f8d09f7709f6c09f6a09f6709f6109f5f09f5209f4e,
  0x0ac230ac220ac210ac200ac1f0ac1e0ac1d0ac1c0ac1b0ac1a0ac190ac180ac170ac160ac150ac140ac130ac120ac110ac100ac0f0ac0e0ac0d0ac0c,
  0x0ac3b0ac3a0ac390ac380ac370ac360ac350ac340ac330ac320ac310ac300ac2f0ac2e0ac2d0ac2c0ac2b0ac2a0ac290ac280ac270ac260ac250ac24,
  0x0ac530ac520ac510ac500ac4f0ac4e0ac4d0ac4c0ac4b0ac4a0ac490ac480ac470ac460ac450ac440ac430ac420ac410ac400ac3f0ac3e0ac3d0ac3c,
  0x0ac6b0ac6a0ac690ac680ac670ac660ac650ac640ac630ac620ac610ac600ac5f0ac5e0ac5d0ac5c0ac5b0ac5a0ac590ac580ac570ac560ac550ac54,
  0x0ac830ac820ac810ac800ac7f0ac7e0ac7d0ac7c0ac7b0ac7a0ac790ac780ac770ac760ac750ac740ac730ac720ac710ac700ac6f0ac6e0ac6d0ac6c,
  0x0ac9b0ac9a0ac990ac980ac970ac960ac950ac940ac930ac920ac910ac900ac8f0ac8e0ac8d0ac8c0ac8b0ac8a0ac890ac880ac870ac860ac850ac84,
  0x0acb30acb20acb10acb00acaf0acae0acad0acac0acab0acaa0aca90aca80aca70aca60aca50aca40aca30aca20aca10aca00ac9f0ac9e0ac9d0ac9c,
  0x0accb0acca0acc90acc80acc70acc60acc50acc40acc30acc20acc10acc00acbf0acbe0acbd0acbc0acbb0acba0acb90acb80acb70acb60acb50acb4,
  0x0ace30ace20ace10ace00acdf0acde0acdd0acdc0acdb0acda0acd90acd80acd70acd60acd50acd40acd30acd20acd10acd00accf0acce0accd0accc,
  0x0acfb0acfa0acf90acf80acf70acf60acf50acf40acf30acf20acf10acf00acef0acee0aced0acec0aceb0acea0ace90ace80ace70ace60ace50ace4,
  0x0ad130ad120ad110ad100ad0f0ad0e0ad0d0ad0c0ad0b0ad0a0ad090ad080ad070ad060ad050ad040ad030ad020ad010ad000acff0acfe0acfd0acfc,
  0x0ad2b0ad2a0ad290ad280ad270ad260ad250ad240ad230ad220ad210ad200ad1f0ad1e0ad1d0ad1c0ad1b0ad1a0ad190ad180ad170ad160ad150ad14,
  0x0ad430ad420ad410ad400ad3f0ad3e0ad3d0ad3c0ad3b0ad3a0ad390ad380ad370ad360ad350ad340ad330ad320ad310ad300ad2f0ad2e0ad2d0ad2c,
  0x0ad5b0ad5a0ad590ad580ad570ad560ad550ad540ad530ad520ad510ad500ad4f0ad4e0ad4d0ad4c0ad4b0ad4a0ad490ad480ad470ad460ad450ad44,
  0x0ad730ad720ad710ad700ad6f0ad6e0ad6d0ad6c0ad6b0ad6a0ad690ad680ad670ad660ad650ad640ad630ad620ad610ad600ad5f0ad5e0ad5d0ad5c,
  0x0ad8b0ad8a0ad890ad880ad870ad860ad850ad840ad830ad820ad810ad800ad7f0ad7e0ad7d0ad7c0ad7b0ad7a0ad790ad780ad770ad760ad750ad74,
  0x0ada30ada20ada10ada00ad9f0ad9e0ad9d0ad9c0ad9b0ad9a0ad990ad980ad970ad960ad950ad940ad930ad920ad910ad900ad8f0ad8e0ad8d0ad8c,
  0x0adbb0adba0adb90adb80adb70adb60adb50adb40adb30adb20adb10adb00adaf0adae0adad0adac0adab0adaa0ada90ada80ada70ada60ada50ada4,
  0x0add30add20add10add00adcf0adce0adcd0adcc0adcb0adca0adc90adc80adc70adc60adc50adc40adc30adc20adc10adc00adbf0adbe0adbd0adbc,
  0x0adeb0adea0ade90ade80ade70ade60ade50ade40ade30ade20ade10ade00addf0adde0addd0addc0addb0adda0add90add80add70add60add50add4,
  0x0ae030ae020ae010ae000adff0adfe0adfd0adfc0adfb0adfa0adf90adf80adf70adf60adf50adf40adf30adf20adf10adf00adef0adee0aded0adec,
  0x0ae1b0ae1a0ae190ae180ae170ae160ae150ae140ae130ae120ae110ae100ae0f0ae0e0ae0d0ae0c0ae0b0ae0a0ae090ae080ae070ae060ae050ae04,
  0x0ae330ae320ae310ae300ae2f0ae2e0ae2d0ae2c0ae2b0ae2a0ae290ae280ae270ae260ae250ae240ae230ae220ae210ae200ae1f0ae1e0ae1d0ae1c,
  0x0ae4b0ae4a0ae490ae480ae470ae460ae450ae440ae430ae420ae410ae400ae3f0ae3e0ae3d0ae3c0ae3b0ae3a0ae390ae380ae370ae360ae350ae34,
  0x0ae630ae620ae610ae600ae5f0ae5e0ae5d0ae5c0ae5b0ae5a0ae590ae580ae570ae560ae550ae540ae530ae520ae510ae500ae4f0ae4e0ae4d0ae4c,
  0x0ae7b0ae7a0ae790ae780ae770ae760ae750ae740ae730ae720ae710ae700ae6f0ae6e0ae6d0ae6c0ae6b0ae6a0ae690ae680ae670ae660ae650ae64,
  0x0ae930ae920ae910ae900ae8f0ae8e0ae8d0ae8c0ae8b0ae8a0ae890ae880ae870ae860ae850ae840ae830ae820ae810ae800ae7f0ae7e0ae7d0ae7c,
  0x0aeab0aeaa0aea90aea80aea70aea60aea50aea40aea30aea20aea10aea00ae9f0ae9e0ae9d0ae9c0ae9b0ae9a0ae990ae980ae970ae960ae950ae94,
  0x0aec30aec20aec10aec00aebf0aebe0aebd0aebc0aebb0aeba0aeb90aeb80aeb70aeb60aeb50aeb40aeb30aeb20aeb10aeb00aeaf0aeae0aead0aeac,
  0x0aedb0aeda0aed90aed80aed70aed60aed50aed40aed30aed20aed10aed00aecf0aece0aecd0aecc0aecb0aeca0aec90aec80aec70aec60aec50aec4,
  0x0aef30aef20aef10aef00aeef0aeee0aeed0aeec0aeeb0aeea0aee90aee80aee70aee60aee50aee40aee30aee20aee10aee00aedf0aede0aedd0aedc,
  0x0af0b0af0a0af090af080af070af060af050af040af030af020af010af000aeff0aefe0aefd0aefc0aefb0aefa0aef90aef80aef70aef60aef50aef4,
  0x0af230af220af210af200af1f0af1e0af1d0af1c0af1b0af1a0af190af180af170af160af150af140af130af120af110af100af0f0af0e0af0d0af0c,
  0x0af3b0af3a0af390af380af370af360af350af340af330af320af310af300af2f0af2e0af2d0af2c0af2b0af2a0af290af280af270af260af250af24,
  0x0af530af520af510af500af4f0af4e0af4d0af4c0af4b0af4a0af490af480af470af460af450af440af430af420af410af400af3f0af3e0af3d0af3c,
  0x0af6b0af6a0af690af680af670af660af650af640af630af620af610af600af5f0af5e0af5d0af5c0af5b0af5a0af590af580af570af560af550af54,
  0x0af830af820af810af800af7f0af7e0af7d0af7c0af7b0af7a0af790af780af770af760af750af740af730af720af710af700af6f0af6e0af6d0af6c,
  0x0af9b0af9a0af990af980af970af960af950af940af930af920af910af900af8f0af8e0af8d0af8c0af8b0af8a0af890af880af870af860af850af84,
  0x0afb30afb20afb10afb00afaf0afae0afad0afac0afab0afaa0afa90afa80afa70afa60afa50afa40afa30afa20afa10afa00af9f0af9e0af9d0af9c,
  0x0afcb0afca0afc90afc80afc70afc60afc50afc40afc30afc20afc10afc00afbf0afbe0afbd0afbc0afbb0afba0afb90afb80afb70afb60afb50afb4,
  0x0afe30afe20afe10afe00afdf0afde0afdd0afdc0afdb0afda0afd90afd80afd70afd60afd50afd40afd30afd20afd10afd00afcf0afce0afcd0afcc,
  0x0affb0affa0aff90aff80aff70aff60aff50aff40aff30aff20aff10aff00afef0afee0afed0afec0afeb0afea0afe90afe80afe70afe60afe50afe4,
  0x0b0130b0120b0110b0100b00f0b00e0b00d0b00c0b00b0b00a0b0090b0080b0070b0060b0050b0040b0030b0020b0010b0000afff0affe0affd0affc,
  0x0b02b0b02a0b0290b0280b0270b0260b0250b0240b0230b0220b0210b0200b01f0b01e0b01d0b01c0b01b0b01a0b0190b0180b0170b0160b0150b014,
  0x0b0430b0420b0410b0400b03f0b03e0b03d0b03c0b03b0b03a0b0390b0380b0370b0360b0350b0340b0330b0320b0310b0300b02f0b02e0b02d0b02c,
  0x0b05b0b05a0b0590b0580b0570b0560b0550b0540b0530b0520b0510b0500b04f0b04e0b04d0b04c0b04b0b04a0b0490b0480b0470b0460b0450b044,
  0x0b0730b0720b0710b0700b06f0b06e0b06d0b06c0b06b0b06a0b0690b0680b0670b0660b0650b0640b0630b0620b0610b0600b05f0b05e0b05d0b05c,
  0x0b08b0b08a0b0890b0880b0870b0860b0850b0840b0830b0820b0810b0800b07f0b07e0b07d0b07c0b07b0b07a0b0790b0780b0770b0760b0750b074,
  0x0b0a30b0a20b0a10b0a00b09f0b09e0b09d0b09c0b09b0b09a0b0990b0980b0970b0960b0950b0940b0930b0920b0910b0900b08f0b08e0b08d0b08c,
  0x0b0bb0b0ba0b0b90b0b80b0b70b0b60b0b50b0b40b0b30b0b20b0b10b0b00b0af0b0ae0b0ad0b0ac0b0ab0b0aa0b0a90b0a80b0a70b0a60b0a50b0a4,
  0x0b0d30b0d20b0d10b0d00b0cf0b0ce0b0cd0b0cc0b0cb0b0ca0b0c90b0c80b0c70b0c60b0c50b0c40b0c30b0c20b0c10b0c00b0bf0b0be0b0bd0b0bc,
  0x0b0eb0b0ea0b0e90b0e80b0e70b0e60b0e50b0e40b0e30b0e20b0e10b0e00b0df0b0de0b0dd0b0dc0b0db0b0da0b0d90b0d80b0d70b0d60b0d50b0d4,
  0x0b1030b1020b1010b1000b0ff0b0fe0b0fd0b0fc0b0fb0b0fa0b0f90b0f80b0f70b0f60b0f50b0f40b0f30b0f20b0f10b0f00b0ef0b0ee0b0ed0b0ec,
  0x0b11b0b11a0b1190b1180b1170b1160b1150b1140b1130b1120b1110b1100b10f0b10e0b10d0b10c0b10b0b10a0b1090b1080b1070b1060b1050b104,
  0x0b1330b1320b1310b1300b12f0b12e0b12d0b12c0b12b0b12a0b1290b1280b1270b1260b1250b1240b1230b1220b1210b1200b11f0b11e0b11d0b11c,
  0x0b14b0b14a0b1490b1480b1470b1460b1450b1440b1430b1420b1410b1400b13f0b13e0b13d0b13c0b13b0b13a0b1390b1380b1370b1360b1350b134,
  0x0b1630b1620b1610b1600b15f0b15e0b15d0b15c0b15b0b15a0b1590b1580b1570b1560b1550b1540b1530b1520b1510b1500b14f0b14e0b14d0b14c,
  0x0b17b0b17a0b1790b1780b1770b1760b1750b1740b1730b1720b1710b1700b16f0b16e0b16d0b16c0b16b0b16a0b1690b1680b1670b1660b1650b164,
  0x0b1930b1920b1910b1900b18f0b18e0b18d0b18c0b18b0b18a0b1890b1880b1870b1860b1850b1840b1830b1820b1810b1800b17f0b17e0b17d0b17c,
  0x0b1ab0b1aa0b1a90b1a80b1a70b1a60b1a50b1a40b1a30b1a20b1a10b1a00b19f0b19e0b19d0b19c0b19b0b19a0b1990b1980b1970b1960b1950b194,
  0x0b1c30b1c20b1c10b1c00b1bf0b1be0b1bd0b1bc0b1bb0b1ba0b1b90b1b80b1b70b1b60b1b50b1b40b1b30b1b20b1b10b1b00b1af0b1ae0b1ad0b1ac,
  0x0b1db0b1da0b1d90b1d80b1d70b1d60b1d50b1d40b1d30b1d20b1d10b1d00b1cf0b1ce0b1cd0b1cc0b1cb0b1ca0b1c90b1c80b1c70b1c60b1c50b1c4,
  0x0b1f30b1f20b1f10b1f00b1ef0b1ee0b1ed0b1ec0b1eb0b1ea0b1e90b1e80b1e70b1e60b1e50b1e40b1e30b1e20b1e10b1e00b1df0b1de0b1dd0b1dc,
  0x0b20b0b20a0b2090b2080b2070b2060b2050b2040b2030b2020b2010b2000b1ff0b1fe0b1fd0b1fc0b1fb0b1fa0b1f90b1f80b1f70b1f60b1f50b1f4,
  0x0b2230b2220b2210b2200b21f0b21e0b21d0b21c0b21b0b21a0b2190b2180b2170b2160b2150b2140b2130b2120b2110b2100b20f0b20e0b20d0b20c,
  0x0b23b0b23a0b2390b2380b2370b2360b2350b2340b2330b2320b2310b2300b22f0b22e0b22d0b22c0b22b0b22a0b2290b2280b2270b2260b2250b224,
  0x0b2530b2520b2510b2500b24f0b24e0b24d0b24c0b24b0b24a0b2490b2480b2470b2460b2450b2440b2430b2420b2410b2400b23f0b23e0b23d0b23c,
  0x0b26b0b26a0b2690b2680b2670b2660b2650b2640b2630b2620b2610b2600b25f0b25e0b25d0b25c0b25b0b25a0b2590b2580b2570b2560b2550b254,
  0x0b2830b2820b2810b2800b27f0b27e0b27d0b27c0b27b0b27a0b2790b2780b2770b2760b2750b2740b2730b2720b2710b2700b26f0b26e0b26d0b26c,
  0x0b29b0b29a0b2990b2980b2970b2960b2950b2940b2930b2920b2910b2900b28f0b28e0b28d0b28c0b28b0b28a0b2890b2880b2870b2860b2850b284,
  0x0b2b30b2b20b2b10b2b00b2af0b2ae0b2ad0b2ac0b2ab0b2aa0b2a90b2a80b2a70b2a60b2a50b2a40b2a30b2a20b2a10b2a00b29f0b29e0b29d0b29c,
  0x0b2cb0b2ca0b2c90b2c80b2c70b2c60b2c50b2c40b2c30b2c20b2c10b2c00b2bf0b2be0b2bd0b2bc0b2bb0b2ba0b2b90b2b80b2b70b2b60b2b50b2b4,
  0x0b2e30b2e20b2e10b2e00b2df0b2de0b2dd0b2dc0b2db0b2da0b2d90b2d80b2d70b2d60b2d50b2d40b2d30b2d20b2d10b2d00b2cf0b2ce0b2cd0b2cc,
  0x0b2fb0b2fa0b2f90b2f80b2f70b2f60b2f50b2f40b2f30b2f20b2f10b2f00b2ef0b2ee0b2ed0b2ec0b2eb0b2ea0b2e90b2e80b2e70b2e60b2e50b2e4,
  0x0b3130b3120b3110b3100b30f0b30e0b30d0b30c0b30b0b30a0b3090b3080b3070b3060b3050b3040b3030b3020b3010b3000b2ff0b2fe0b2fd0b2fc,
  0x0b32b0b32a0b3290b3280b3270b3260b3250b3240b3230b3220b3210b3200b31f0b31e0b31d0b31c0b31b0b31a0b3190b3180b3170b3160b3150b314,
  0x0b3430b3420b3410b3400b33f0b33e0b33d0b33c0b33b0b33a0b3390b3380b3370b3360b3350b3340b3330b3320b3310b3300b32f0b32e0b32d0b32c,
  0x0b35b0b35a0b3590b3580b3570b3560b3550b3540b3530b3520b3510b3500b34f0b34e0b34d0b34c0b34b0b34a0b3490b3480b3470b3460b3450b344,
  0x0b3730b3720b3710b3700b36f0b36e0b36d0b36c0b36b0b36a0b3690b3680b3670b3660b3650b3640b3630b3620b3610b3600b35f0b35e0b35d0b35c,
  0x0b38b0b38a0b3890b3880b3870b3860b3850b3840b3830b3820b3810b3800b37f0b37e0b37d0b37c0b37b0b37a0b3790b3780b3770b3760b3750b374,
  0x0b3a30b3a20b3a10b3a00b39f0b39e0b39d0b39c0b39b0b39a0b3990b3980b3970b3960b3950b3940b3930b3920b3910b3900b38f0b38e0b38d0b38c,
  0x0b3bb0b3ba0b3b90b3b80b3b70b3b60b3b50b3b40b3b30b3b20b3b10b3b00b3af0b3ae0b3ad0b3ac0b3ab0b3aa0b3a90b3a80b3a70b3a60b3a50b3a4,
  0x0b3d30b3d20b3d10b3d00b3cf0b3ce0b3cd0b3cc0b3cb0b3ca0b3c90b3c80b3c70b3c60b3c50b3c40b3c30b3c20b3c10b3c00b3bf0b3be0b3bd0b3bc,
  0x0b3eb0b3ea0b3e90b3e80b3e70b3e60b3e50b3e40b3e30b3e20b3e10b3e00b3df0b3de0b3dd0b3dc0b3db0b3da0b3d90b3d80b3d70b3d60b3d50b3d4,
  0x0b4030b4020b4010b4000b3ff0b3fe0b3fd0b3fc0b3fb0b3fa0b3f90b3f80b3f70b3f60b3f50b3f40b3f30b3f20b3f10b3f00b3ef0b3ee0b3ed0b3ec,
  0x0b41b0b41a0b4190b4180b4170b4160b4150b4140b4130b4120b4110b4100b40f0b40e0b40d0b40c0b40b0b40a0b4090b4080b4070b4060b4050b404,
  0x0b4330b4320b4310b4300b42f0b42e0b42d0b42c0b42b0b42a0b4290b4280b4270b4260b4250b4240b4230b4220b4210b4200b41f0b41e0b41d0b41c,
  0x0b44b0b44a0b4490b4480b4470b4460b4450b4440b4430b4420b4410b4400b43f0b43e0b43d0b43c0b43b0b43a0b4390b4380b4370b4360b4350b434,
  0x0b4630b4620b4610b4600b45f0b45e0b45d0b45c0b45b0b45a0b4590b4580b4570b4560b4550b4540b4530b4520b4510b4500b44f0b44e0b44d0b44c,
  0x0b47b0b47a0b4790b4780b4770b4760b4750b4740b4730b4720b4710b4700b46f0b46e0b46d0b46c0b46b0b46a0b4690b4680b4670b4660b4650b464,
  0x0b4930b4920b4910b4900b48f0b48e0b48d0b48c0b48b0b48a0b4890b4880b4870b4860b4850b4840b4830b4820b4810b4800b47f0b47e0b47d0b47c,
  0x0b4ab0b4aa0b4a90b4a80b4a70b4a60b4a50b4a40b4a30b4a20b4a10b4a00b49f0b49e0b49d0b49c0b49b0b49a0b4990b4980b4970b4960b4950b494,
  0x0b4c30b4c20b4c10b4c00b4bf0b4be0b4bd0b4bc0b4bb0b4ba0b4b90b4b80b4b70b4b60b4b50b4b40b4b30b4b20b4b10b4b00b4af0b4ae0b4ad0b4ac,
  0x0b4db0b4da0b4d90b4d80b4d70b4d60b4d50b4d40b4d30b4d20b4d10b4d00b4cf0b4ce0b4cd0b4cc0b4cb0b4ca0b4c90b4c80b4c70b4c60b4c50b4c4,
  0x0b4f30b4f20b4f10b4f00b4ef0b4ee0b4ed0b4ec0b4eb0b4ea0b4e90b4e80b4e70b4e60b4e50b4e40b4e30b4e20b4e10b4e00b4df0b4de0b4dd0b4dc,
  0x0b50b0b50a0b5090b5080b5070b5060b5050b5040b5030b5020b5010b5000b4ff0b4fe0b4fd0b4fc0b4fb0b4fa0b4f90b4f80b4f70b4f60b4f50b4f4,
  0x0b5230b5220b5210b5200b51f0b51e0b51d0b51c0b51b0b51a0b5190b5180b5170b5160b5150b5140b5130b5120b5110b5100b50f0b50e0b50d0b50c,
  0x0b53b0b53a0b5390b5380b5370b5360b5350b5340b5330b5320b5310b5300b52f0b52e0b52d0b52c0b52b0b52a0b5290b5280b5270b5260b5250b524,
  0x0b5530b5520b5510b5500b54f0b54e0b54d0b54c0b54b0b54a0b5490b5480b5470b5460b5450b5440b5430b5420b5410b5400b53f0b53e0b53d0b53c,
  0x0b56b0b56a0b5690b5680b5670b5660b5650b5640b5630b5620b5610b5600b55f0b55e0b55d0b55c0b55b0b55a0b5590b5580b5570b5560b5550b554,
  0x0b5830b5820b5810b5800b57f0b57e0b57d0b57c0b57b0b57a0b5790b5780b5770b5760b5750b5740b5730b5720b5710b5700b56f0b56e0b56d0b56c,
  0x0b59b0b59a0b5990b5980b5970b5960b5950b5940b5930b5920b5910b5900b58f0b58e0b58d0b58c0b58b0b58a0b5890b5880b5870b5860b5850b584,
  0x0b5b30b5b20b5b10b5b00b5af0b5ae0b5ad0b5ac0b5ab0b5aa0b5a90b5a80b5a70b5a60b5a50b5a40b5a30b5a20b5a10b5a00b59f0b59e0b59d0b59c,
  0x0b5cb0b5ca0b5c90b5c80b5c70b5c60b5c50b5c40b5c30b5c20b5c10b5c00b5bf0b5be0b5bd0b5bc0b5bb0b5ba0b5b90b5b80b5b70b5b60b5b50b5b4,
  0x0b5e30b5e20b5e10b5e00b5df0b5de0b5dd0b5dc0b5db0b5da0b5d90b5d80b5d70b5d60b5d50b5d40b5d30b5d20b5d10b5d00b5cf0b5ce0b5cd0b5cc,
  0x0b5fb0b5fa0b5f90b5f80b5f70b5f60b5f50b5f40b5f30b5f20b5f10b5f00b5ef0b5ee0b5ed0b5ec0b5eb0b5ea0b5e90b5e80b5e70b5e60b5e50b5e4,
  0x0b6130b6120b6110b6100b60f0b60e0b60d0b60c0b60b0b60a0b6090b6080b6070b6060b6050b6040b6030b6020b6010b6000b5ff0b5fe0b5fd0b5fc,
  0x0b62b0b62a0b6290b6280b6270b6260b6250b6240b6230b6220b6210b6200b61f0b61e0b61d0b61c0b61b0b61a0b6190b6180b6170b6160b6150b614,
  0x0b6430b6420b6410b6400b63f0b63e0b63d0b63c0b63b0b63a0b6390b6380b6370b6360b6350b6340b6330b6320b6310b6300b62f0b62e0b62d0b62c,
  0x0b65b0b65a0b6590b6580b6570b6560b6550b6540b6530b6520b6510b6500b64f0b64e0b64d0b64c0b64b0b64a0b6490b6480b6470b6460b6450b644,
  0x0b6730b6720b6710b6700b66f0b66e0b66d0b66c0b66b0b66a0b6690b6680b6670b6660b6650b6640b6630b6620b6610b6600b65f0b65e0b65d0b65c,
  0x0b68b0b68a0b6890b6880b6870b6860b6850b6840b6830b6820b6810b6800b67f0b67e0b67d0b67c0b67b0b67a0b6790b6780b6770b6760b6750b674,
  0x0b6a30b6a20b6a10b6a00b69f0b69e0b69d0b69c0b69b0b69a0b6990b6980b6970b6960b6950b6940b6930b6920b6910b6900b68f0b68e0b68d0b68c,
  0x0b6bb0b6ba0b6b90b6b80b6b70b6b60b6b50b6b40b6b30b6b20b6b10b6b00b6af0b6ae0b6ad0b6ac0b6ab0b6aa0b6a90b6a80b6a70b6a60b6a50b6a4,
  0x0b6d30b6d20b6d10b6d00b6cf0b6ce0b6cd0b6cc0b6cb0b6ca0b6c90b6c80b6c70b6c60b6c50b6c40b6c30b6c20b6c10b6c00b6bf0b6be0b6bd0b6bc,
  0x0b6eb0b6ea0b6e90b6e80b6e70b6e60b6e50b6e40b6e30b6e20b6e10b6e00b6df0b6de0b6dd0b6dc0b6db0b6da0b6d90b6d80b6d70b6d60b6d50b6d4,
  0x0b7030b7020b7010b7000b6ff0b6fe0b6fd0b6fc0b6fb0b6fa0b6f90b6f80b6f70b6f60b6f50b6f40b6f30b6f20b6f10b6f00b6ef0b6ee0b6ed0b6ec,
  0x0b71b0b71a0b7190b7180b7170b7160b7150b7140b7130b7120b7110b7100b70f0b70e0b70d0b70c0b70b0b70a0b7090b7080b7070b7060b7050b704,
  0x0b7330b7320b7310b7300b72f0b72e0b72d0b72c0b72b0b72a0b7290b7280b7270b7260b7250b7240b7230b7220b7210b7200b71f0b71e0b71d0b71c,
  0x0b74b0b74a0b7490b7480b7470b7460b7450b7440b7430b7420b7410b7400b73f0b73e0b73d0b73c0b73b0b73a0b7390b7380b7370b7360b7350b734,
  0x0b7630b7620b7610b7600b75f0b75e0b75d0b75c0b75b0b75a0b7590b7580b7570b7560b7550b7540b7530b7520b7510b7500b74f0b74e0b74d0b74c,
  0x0b77b0b77a0b7790b7780b7770b7760b7750b7740b7730b7720b7710b7700b76f0b76e0b76d0b76c0b76b0b76a0b7690b7680b7670b7660b7650b764,
  0x0b7930b7920b7910b7900b78f0b78e0b78d0b78c0b78b0b78a0b7890b7880b7870b7860b7850b7840b7830b7820b7810b7800b77f0b77e0b77d0b77c,
  0x0b7ab0b7aa0b7a90b7a80b7a70b7a60b7a50b7a40b7a30b7a20b7a10b7a00b79f0b79e0b79d0b79c0b79b0b79a0b7990b7980b7970b7960b7950b794,
  0x0b7c30b7c20b7c10b7c00b7bf0b7be0b7bd0b7bc0b7bb0b7ba0b7b90b7b80b7b70b7b60b7b50b7b40b7b30b7b20b7b10b7b00b7af0b7ae0b7ad0b7ac,
  0x0b7db0b7da0b7d90b7d80b7d70b7d60b7d50b7d40b7d30b7d20b7d10b7d00b7cf0b7ce0b7cd0b7cc0b7cb0b7ca0b7c90b7c80b7c70b7c60b7c50b7c4,
  0x0b7f30b7f20b7f10b7f00b7ef0b7ee0b7ed0b7ec0b7eb0b7ea0b7e90b7e80b7e70b7e60b7e50b7e40b7e30b7e20b7e10b7e00b7df0b7de0b7dd0b7dc,
  0x0b80b0b80a0b8090b8080b8070b8060b8050b8040b8030b8020b8010b8000b7ff0b7fe0b7fd0b7fc0b7fb0b7fa0b7f90b7f80b7f70b7f60b7f50b7f4,
  0x0b8230b8220b8210b8200b81f0b81e0b81d0b81c0b81b0b81a0b8190b8180b8170b8160b8150b8140b8130b8120b8110b8100b80f0b80e0b80d0b80c,
  0x0b83b0b83a0b8390b8380b8370b8360b8350b8340b8330b8320b8310b8300b82f0b82e0b82d0b82c0b82b0b82a0b8290b8280b8270b8260b8250b824,
  0x0b8530b8520b8510b8500b84f0b84e0b84d0b84c0b84b0b84a0b8490b8480b8470b8460b8450b8440b8430b8420b8410b8400b83f0b83e0b83d0b83c,
  0x0b86b0b86a0b8690b8680b8670b8660b8650b8640b8630b8620b8610b8600b85f0b85e0b85d0b85c0b85b0b85a0b8590b8580b8570b8560b8550b854,
  0x0b8830b8820b8810b8800b87f0b87e0b87d0b87c0b87b0b87a0b8790b8780b8770b8760b8750b8740b8730b8720b8710b8700b86f0b86e0b86d0b86c,
  0x0b89b0b89a0b8990b8980b8970b8960b8950b8940b8930b8920b8910b8900b88f0b88e0b88d0b88c0b88b0b88a0b8890b8880b8870b8860b8850b884,
  0x0b8b30b8b20b8b10b8b00b8af0b8ae0b8ad0b8ac0b8ab0b8aa0b8a90b8a80b8a70b8a60b8a50b8a40b8a30b8a20b8a10b8a00b89f0b89e0b89d0b89c,
  0x0b8cb0b8ca0b8c90b8c80b8c70b8c60b8c50b8c40b8c30b8c20b8c10b8c00b8bf0b8be0b8bd0b8bc0b8bb0b8ba0b8b90b8b80b8b70b8b60b8b50b8b4,
  0x0b8e30b8e20b8e10b8e00b8df0b8de0b8dd0b8dc0b8db0b8da0b8d90b8d80b8d70b8d60b8d50b8d40b8d30b8d20b8d10b8d00b8cf0b8ce0b8cd0b8cc,
  0x0b8fb0b8fa0b8f90b8f80b8f70b8f60b8f50b8f40b8f30b8f20b8f10b8f00b8ef0b8ee0b8ed0b8ec0b8eb0b8ea0b8e90b8e80b8e70b8e60b8e50b8e4,
  0x0b9130b9120b9110b9100b90f0b90e0b90d0b90c0b90b0b90a0b9090b9080b9070b9060b9050b9040b9030b9020b9010b9000b8ff0b8fe0b8fd0b8fc,
  0x0b92b0b92a0b9290b9280b9270b9260b9250b9240b9230b9220b9210b9200b91f0b91e0b91d0b91c0b91b0b91a0b9190b9180b9170b9160b9150b914,
  0x0b9430b9420b9410b9400b93f0b93e0b93d0b93c0b93b0b93a0b9390b9380b9370b9360b9350b9340b9330b9320b9310b9300b92f0b92e0b92d0b92c,
  0x0b95b0b95a0b9590b9580b9570b9560b9550b9540b9530b9520b9510b9500b94f0b94e0b94d0b94c0b94b0b94a0b9490b9480b9470b9460b9450b944,
  0x0b9730b9720b9710b9700b96f0b96e0b96d0b96c0b96b0b96a0b9690b9680b9670b9660b9650b9640b9630b9620b9610b9600b95f0b95e0b95d0b95c,
  0x0b98b0b98a0b9890b9880b9870b9860b9850b9840b9830b9820b9810b9800b97f0b97e0b97d0b97c0b97b0b97a0b9790b9780b9770b9760b9750b974,
  0x0b9a30b9a20b9a10b9a00b99f0b99e0b99d0b99c0b99b0b99a0b9990b9980b9970b9960b9950b9940b9930b9920b9910b9900b98f0b98e0b98d0b98c,
  0x0b9bb0b9ba0b9b90b9b80b9b70b9b60b9b50b9b40b9b30b9b20b9b10b9b00b9af0b9ae0b9ad0b9ac0b9ab0b9aa0b9a90b9a80b9a70b9a60b9a50b9a4,
  0x0b9d30b9d20b9d10b9d00b9cf0b9ce0b9cd0b9cc0b9cb0b9ca0b9c90b9c80b9c70b9c60b9c50b9c40b9c30b9c20b9c10b9c00b9bf0b9be0b9bd0b9bc,
  0x0b9eb0b9ea0b9e90b9e80b9e70b9e60b9e50b9e40b9e30b9e20b9e10b9e00b9df0b9de0b9dd0b9dc0b9db0b9da0b9d90b9d80b9d70b9d60b9d50b9d4,
  0x0ba030ba020ba010ba000b9ff0b9fe0b9fd0b9fc0b9fb0b9fa0b9f90b9f80b9f70b9f60b9f50b9f40b9f30b9f20b9f10b9f00b9ef0b9ee0b9ed0b9ec,
  0x0ba1b0ba1a0ba190ba180ba170ba160ba150ba140ba130ba120ba110ba100ba0f0ba0e0ba0d0ba0c0ba0b0ba0a0ba090ba080ba070ba060ba050ba04,
  0x0ba330ba320ba310ba300ba2f0ba2e0ba2d0ba2c0ba2b0ba2a0ba290ba280ba270ba260ba250ba240ba230ba220ba210ba200ba1f0ba1e0ba1d0ba1c,
  0x0ba4b0ba4a0ba490ba480ba470ba460ba450ba440ba430ba420ba410ba400ba3f0ba3e0ba3d0ba3c0ba3b0ba3a0ba390ba380ba370ba360ba350ba34,
  0x0ba630ba620ba610ba600ba5f0ba5e0ba5d0ba5c0ba5b0ba5a0ba590ba580ba570ba560ba550ba540ba530ba520ba510ba500ba4f0ba4e0ba4d0ba4c,
  0x0ba7b0ba7a0ba790ba780ba770ba760ba750ba740ba730ba720ba710ba700ba6f0ba6e0ba6d0ba6c0ba6b0ba6a0ba690ba680ba670ba660ba650ba64,
  0x0ba930ba920ba910ba900ba8f0ba8e0ba8d0ba8c0ba8b0ba8a0ba890ba880ba870ba860ba850ba840ba830ba820ba810ba800ba7f0ba7e0ba7d0ba7c,
  0x0baab0baaa0baa90baa80baa70baa60baa50baa40baa30baa20baa10baa00ba9f0ba9e0ba9d0ba9c0ba9b0ba9a0ba990ba980ba970ba960ba950ba94,
  0x0bac30bac20bac10bac00babf0babe0babd0babc0babb0baba0bab90bab80bab70bab60bab50bab40bab30bab20bab10bab00baaf0baae0baad0baac,
  0x0badb0bada0bad90bad80bad70bad60bad50bad40bad30bad20bad10bad00bacf0bace0bacd0bacc0bacb0baca0bac90bac80bac70bac60bac50bac4,
  0x0baf30baf20baf10baf00baef0baee0baed0baec0baeb0baea0bae90bae80bae70bae60bae50bae40bae30bae20bae10bae00badf0bade0badd0badc,
  0x0bb0b0bb0a0bb090bb080bb070bb060bb050bb040bb030bb020bb010bb000baff0bafe0bafd0bafc0bafb0bafa0baf90baf80baf70baf60baf50baf4,
  0x0bb230bb220bb210bb200bb1f0bb1e0bb1d0bb1c0bb1b0bb1a0bb190bb180bb170bb160bb150bb140bb130bb120bb110bb100bb0f0bb0e0bb0d0bb0c,
  0x0bb3b0bb3a0bb390bb380bb370bb360bb350bb340bb330bb320bb310bb300bb2f0bb2e0bb2d0bb2c0bb2b0bb2a0bb290bb280bb270bb260bb250bb24,
  0x0bb530bb520bb510bb500bb4f0bb4e0bb4d0bb4c0bb4b0bb4a0bb490bb480bb470bb460bb450bb440bb430bb420bb410bb400bb3f0bb3e0bb3d0bb3c,
  0x0bb6b0bb6a0bb690bb680bb670bb660bb650bb640bb630bb620bb610bb600bb5f0bb5e0bb5d0bb5c0bb5b0bb5a0bb590bb580bb570bb560bb550bb54,
  0x0bb830bb820bb810bb800bb7f0bb7e0bb7d0bb7c0bb7b0bb7a0bb790bb780bb770bb760bb750bb740bb730bb720bb710bb700bb6f0bb6e0bb6d0bb6c,
  0x0bb9b0bb9a0bb990bb980bb970bb960bb950bb940bb930bb920bb910bb900bb8f0bb8e0bb8d0bb8c0bb8b0bb8a0bb890bb880bb870bb860bb850bb84,
  0x0bbb30bbb20bbb10bbb00bbaf0bbae0bbad0bbac0bbab0bbaa0bba90bba80bba70bba60bba50bba40bba30bba20bba10bba00bb9f0bb9e0bb9d0bb9c,
  0x0bbcb0bbca0bbc90bbc80bbc70bbc60bbc50bbc40bbc30bbc20bbc10bbc00bbbf0bbbe0bbbd0bbbc0bbbb0bbba0bbb90bbb80bbb70bbb60bbb50bbb4,
  0x0bbe30bbe20bbe10bbe00bbdf0bbde0bbdd0bbdc0bbdb0bbda0bbd90bbd80bbd70bbd60bbd50bbd40bbd30bbd20bbd10bbd00bbcf0bbce0bbcd0bbcc,
  0x0bbfb0bbfa0bbf90bbf80bbf70bbf60bbf50bbf40bbf30bbf20bbf10bbf00bbef0bbee0bbed0bbec0bbeb0bbea0bbe90bbe80bbe70bbe60bbe50bbe4,
  0x0bc130bc120bc110bc100bc0f0bc0e0bc0d0bc0c0bc0b0bc0a0bc090bc080bc070bc060bc050bc040bc030bc020bc010bc000bbff0bbfe0bbfd0bbfc,
  0x0bc2b0bc2a0bc290bc280bc270bc260bc250bc240bc230bc220bc210bc200bc1f0bc1e0bc1d0bc1c0bc1b0bc1a0bc190bc180bc170bc160bc150bc14,
  0x0bc430bc420bc410bc400bc3f0bc3e0bc3d0bc3c0bc3b0bc3a0bc390bc380bc370bc360bc350bc340bc330bc320bc310bc300bc2f0bc2e0bc2d0bc2c,
  0x0bc5b0bc5a0bc590bc580bc570bc560bc550bc540bc530bc520bc510bc500bc4f0bc4e0bc4d0bc4c0bc4b0bc4a0bc490bc480bc470bc460bc450bc44,
  0x0bc730bc720bc710bc700bc6f0bc6e0bc6d0bc6c0bc6b0bc6a0bc690bc680bc670bc660bc650bc640bc630bc620bc610bc600bc5f0bc5e0bc5d0bc5c,
  0x0bc8b0bc8a0bc890bc880bc870bc860bc850bc840bc830bc820bc810bc800bc7f0bc7e0bc7d0bc7c0bc7b0bc7a0bc790bc780bc770bc760bc750bc74,
  0x0bca30bca20bca10bca00bc9f0bc9e0bc9d0bc9c0bc9b0bc9a0bc990bc980bc970bc960bc950bc940bc930bc920bc910bc900bc8f0bc8e0bc8d0bc8c,
  0x0bcbb0bcba0bcb90bcb80bcb70bcb60bcb50bcb40bcb30bcb20bcb10bcb00bcaf0bcae0bcad0bcac0bcab0bcaa0bca90bca80bca70bca60bca50bca4,
  0x0bcd30bcd20bcd10bcd00bccf0bcce0bccd0bccc0bccb0bcca0bcc90bcc80bcc70bcc60bcc50bcc40bcc30bcc20bcc10bcc00bcbf0bcbe0bcbd0bcbc,
  0x0bceb0bcea0bce90bce80bce70bce60bce50bce40bce30bce20bce10bce00bcdf0bcde0bcdd0bcdc0bcdb0bcda0bcd90bcd80bcd70bcd60bcd50bcd4,
  0x0bd030bd020bd010bd000bcff0bcfe0bcfd0bcfc0bcfb0bcfa0bcf90bcf80bcf70bcf60bcf50bcf40bcf30bcf20bcf10bcf00bcef0bcee0bced0bcec,
  0x0bd1b0bd1a0bd190bd180bd170bd160bd150bd140bd130bd120bd110bd100bd0f0bd0e0bd0d0bd0c0bd0b0bd0a0bd090bd080bd070bd060bd050bd04,
  0x0bd330bd320bd310bd300bd2f0bd2e0bd2d0bd2c0bd2b0bd2a0bd290bd280bd270bd260bd250bd240bd230bd220bd210bd200bd1f0bd1e0bd1d0bd1c,
  0x0bd4b0bd4a0bd490bd480bd470bd460bd450bd440bd430bd420bd410bd400bd3f0bd3e0bd3d0bd3c0bd3b0bd3a0bd390bd380bd370bd360bd350bd34,
  0x0bd630bd620bd610bd600bd5f0bd5e0bd5d0bd5c0bd5b0bd5a0bd590bd580bd570bd560bd550bd540bd530bd520bd510bd500bd4f0bd4e0bd4d0bd4c,
  0x0bd7b0bd7a0bd790bd780bd770bd760bd750bd740bd730bd720bd710bd700bd6f0bd6e0bd6d0bd6c0bd6b0bd6a0bd690bd680bd670bd660bd650bd64,
  0x0bd930bd920bd910bd900bd8f0bd8e0bd8d0bd8c0bd8b0bd8a0bd890bd880bd870bd860bd850bd840bd830bd820bd810bd800bd7f0bd7e0bd7d0bd7c,
  0x0bdab0bdaa0bda90bda80bda70bda60bda50bda40bda30bda20bda10bda00bd9f0bd9e0bd9d0bd9c0bd9b0bd9a0bd990bd980bd970bd960bd950bd94,
  0x0bdc30bdc20bdc10bdc00bdbf0bdbe0bdbd0bdbc0bdbb0bdba0bdb90bdb80bdb70bdb60bdb50bdb40bdb30bdb20bdb10bdb00bdaf0bdae0bdad0bdac,
  0x0bddb0bdda0bdd90bdd80bdd70bdd60bdd50bdd40bdd30bdd20bdd10bdd00bdcf0bdce0bdcd0bdcc0bdcb0bdca0bdc90bdc80bdc70bdc60bdc50bdc4,
  0x0bdf30bdf20bdf10bdf00bdef0bdee0bded0bdec0bdeb0bdea0bde90bde80bde70bde60bde50bde40bde30bde20bde10bde00bddf0bdde0bddd0bddc,
  0x0be0b0be0a0be090be080be070be060be050be040be030be020be010be000bdff0bdfe0bdfd0bdfc0bdfb0bdfa0bdf90bdf80bdf70bdf60bdf50bdf4,
  0x0be230be220be210be200be1f0be1e0be1d0be1c0be1b0be1a0be190be180be170be160be150be140be130be120be110be100be0f0be0e0be0d0be0c,
  0x0be3b0be3a0be390be380be370be360be350be340be330be320be310be300be2f0be2e0be2d0be2c0be2b0be2a0be290be280be270be260be250be24,
  0x0be530be520be510be500be4f0be4e0be4d0be4c0be4b0be4a0be490be480be470be460be450be440be430be420be410be400be3f0be3e0be3d0be3c,
  0x0be6b0be6a0be690be680be670be660be650be640be630be620be610be600be5f0be5e0be5d0be5c0be5b0be5a0be590be580be570be560be550be54,
  0x0be830be820be810be800be7f0be7e0be7d0be7c0be7b0be7a0be790be780be770be760be750be740be730be720be710be700be6f0be6e0be6d0be6c,
  0x0be9b0be9a0be990be980be970be960be950be940be930be920be910be900be8f0be8e0be8d0be8c0be8b0be8a0be890be880be870be860be850be84,
  0x0beb30beb20beb10beb00beaf0beae0bead0beac0beab0beaa0bea90bea80bea70bea60bea50bea40bea30bea20bea10bea00be9f0be9e0be9d0be9c,
  0x0becb0beca0bec90bec80bec70bec60bec50bec40bec30bec20bec10bec00bebf0bebe0bebd0bebc0bebb0beba0beb90beb80beb70beb60beb50beb4,
  0x0bee30bee20bee10bee00bedf0bede0bedd0bedc0bedb0beda0bed90bed80bed70bed60bed50bed40bed30bed20bed10bed00becf0bece0becd0becc,
  0x0befb0befa0bef90bef80bef70bef60bef50bef40bef30bef20bef10bef00beef0beee0beed0beec0beeb0beea0bee90bee80bee70bee60bee50bee4,
  0x0bf130bf120bf110bf100bf0f0bf0e0bf0d0bf0c0bf0b0bf0a0bf090bf080bf070bf060bf050bf040bf030bf020bf010bf000beff0befe0befd0befc,
  0x0bf2b0bf2a0bf290bf280bf270bf260bf250bf240bf230bf220bf210bf200bf1f0bf1e0bf1d0bf1c0bf1b0bf1a0bf190bf180bf170bf160bf150bf14,
  0x0bf430bf420bf410bf400bf3f0bf3e0bf3d0bf3c0bf3b0bf3a0bf390bf380bf370bf360bf350bf340bf330bf320bf310bf300bf2f0bf2e0bf2d0bf2c,
  0x0bf5b0bf5a0bf590bf580bf570bf560bf550bf540bf530bf520bf510bf500bf4f0bf4e0bf4d0bf4c0bf4b0bf4a0bf490bf480bf470bf460bf450bf44,
  0x0bf730bf720bf710bf700bf6f0bf6e0bf6d0bf6c0bf6b0bf6a0bf690bf680bf670bf660bf650bf640bf630bf620bf610bf600bf5f0bf5e0bf5d0bf5c,
  0x0bf8b0bf8a0bf890bf880bf870bf860bf850bf840bf830bf820bf810bf800bf7f0bf7e0bf7d0bf7c0bf7b0bf7a0bf790bf780bf770bf760bf750bf74,
  0x0bfa30bfa20bfa10bfa00bf9f0bf9e0bf9d0bf9c0bf9b0bf9a0bf990bf980bf970bf960bf950bf940bf930bf920bf910bf900bf8f0bf8e0bf8d0bf8c,
  0x0bfbb0bfba0bfb90bfb80bfb70bfb60bfb50bfb40bfb30bfb20bfb10bfb00bfaf0bfae0bfad0bfac0bfab0bfaa0bfa90bfa80bfa70bfa60bfa50bfa4,
  0x0bfd30bfd20bfd10bfd00bfcf0bfce0bfcd0bfcc0bfcb0bfca0bfc90bfc80bfc70bfc60bfc50bfc40bfc30bfc20bfc10bfc00bfbf0bfbe0bfbd0bfbc,
  0x0bfeb0bfea0bfe90bfe80bfe70bfe60bfe50bfe40bfe30bfe20bfe10bfe00bfdf0bfde0bfdd0bfdc0bfdb0bfda0bfd90bfd80bfd70bfd60bfd50bfd4,
  0x0c0030c0020c0010c0000bfff0bffe0bffd0bffc0bffb0bffa0bff90bff80bff70bff60bff50bff40bff30bff20bff10bff00bfef0bfee0bfed0bfec,
  0x0c01b0c01a0c0190c0180c0170c0160c0150c0140c0130c0120c0110c0100c00f0c00e0c00d0c00c0c00b0c00a0c0090c0080c0070c0060c0050c004,
  0x0c0330c0320c0310c0300c02f0c02e0c02d0c02c0c02b0c02a0c0290c0280c0270c0260c0250c0240c0230c0220c0210c0200c01f0c01e0c01d0c01c,
  0x0c04b0c04a0c0490c0480c0470c0460c0450c0440c0430c0420c0410c0400c03f0c03e0c03d0c03c0c03b0c03a0c0390c0380c0370c0360c0350c034,
  0x0c0630c0620c0610c0600c05f0c05e0c05d0c05c0c05b0c05a0c0590c0580c0570c0560c0550c0540c0530c0520c0510c0500c04f0c04e0c04d0c04c,
  0x0c07b0c07a0c0790c0780c0770c0760c0750c0740c0730c0720c0710c0700c06f0c06e0c06d0c06c0c06b0c06a0c0690c0680c0670c0660c0650c064,
  0x0c0930c0920c0910c0900c08f0c08e0c08d0c08c0c08b0c08a0c0890c0880c0870c0860c0850c0840c0830c0820c0810c0800c07f0c07e0c07d0c07c,
  0x0c0ab0c0aa0c0a90c0a80c0a70c0a60c0a50c0a40c0a30c0a20c0a10c0a00c09f0c09e0c09d0c09c0c09b0c09a0c0990c0980c0970c0960c0950c094,
  0x0c0c30c0c20c0c10c0c00c0bf0c0be0c0bd0c0bc0c0bb0c0ba0c0b90c0b80c0b70c0b60c0b50c0b40c0b30c0b20c0b10c0b00c0af0c0ae0c0ad0c0ac,
  0x0c0db0c0da0c0d90c0d80c0d70c0d60c0d50c0d40c0d30c0d20c0d10c0d00c0cf0c0ce0c0cd0c0cc0c0cb0c0ca0c0c90c0c80c0c70c0c60c0c50c0c4,
  0x0c0f30c0f20c0f10c0f00c0ef0c0ee0c0ed0c0ec0c0eb0c0ea0c0e90c0e80c0e70c0e60c0e50c0e40c0e30c0e20c0e10c0e00c0df0c0de0c0dd0c0dc,
  0x0c10b0c10a0c1090c1080c1070c1060c1050c1040c1030c1020c1010c1000c0ff0c0fe0c0fd0c0fc0c0fb0c0fa0c0f90c0f80c0f70c0f60c0f50c0f4,
  0x0c1230c1220c1210c1200c11f0c11e0c11d0c11c0c11b0c11a0c1190c1180c1170c1160c1150c1140c1130c1120c1110c1100c10f0c10e0c10d0c10c,
  0x0c13b0c13a0c1390c1380c1370c1360c1350c1340c1330c1320c1310c1300c12f0c12e0c12d0c12c0c12b0c12a0c1290c1280c1270c1260c1250c124,
  0x0c1530c1520c1510c1500c14f0c14e0c14d0c14c0c14b0c14a0c1490c1480c1470c1460c1450c1440c1430c1420c1410c1400c13f0c13e0c13d0c13c,
  0x0c16b0c16a0c1690c1680c1670c1660c1650c1640c1630c1620c1610c1600c15f0c15e0c15d0c15c0c15b0c15a0c1590c1580c1570c1560c1550c154,
  0x0c1830c1820c1810c1800c17f0c17e0c17d0c17c0c17b0c17a0c1790c1780c1770c1760c1750c1740c1730c1720c1710c1700c16f0c16e0c16d0c16c,
  0x0c19b0c19a0c1990c1980c1970c1960c1950c1940c1930c1920c1910c1900c18f0c18e0c18d0c18c0c18b0c18a0c1890c1880c1870c1860c1850c184,
  0x0c1b30c1b20c1b10c1b00c1af0c1ae0c1ad0c1ac0c1ab0c1aa0c1a90c1a80c1a70c1a60c1a50c1a40c1a30c1a20c1a10c1a00c19f0c19e0c19d0c19c,
  0x0c1cb0c1ca0c1c90c1c80c1c70c1c60c1c50c1c40c1c30c1c20c1c10c1c00c1bf0c1be0c1bd0c1bc0c1bb0c1ba0c1b90c1b80c1b70c1b60c1b50c1b4,
  0x0c1e30c1e20c1e10c1e00c1df0c1de0c1dd0c1dc0c1db0c1da0c1d90c1d80c1d70c1d60c1d50c1d40c1d30c1d20c1d10c1d00c1cf0c1ce0c1cd0c1cc,
  0x0c1fb0c1fa0c1f90c1f80c1f70c1f60c1f50c1f40c1f30c1f20c1f10c1f00c1ef0c1ee0c1ed0c1ec0c1eb0c1ea0c1e90c1e80c1e70c1e60c1e50c1e4,
  0x0c2130c2120c2110c2100c20f0c20e0c20d0c20c0c20b0c20a0c2090c2080c2070c2060c2050c2040c2030c2020c2010c2000c1ff0c1fe0c1fd0c1fc,
  0x0c22b0c22a0c2290c2280c2270c2260c2250c2240c2230c2220c2210c2200c21f0c21e0c21d0c21c0c21b0c21a0c2190c2180c2170c2160c2150c214,
  0x0c2430c2420c2410c2400c23f0c23e0c23d0c23c0c23b0c23a0c2390c2380c2370c2360c2350c2340c2330c2320c2310c2300c22f0c22e0c22d0c22c,
  0x0c25b0c25a0c2590c2580c2570c2560c2550c2540c2530c2520c2510c2500c24f0c24e0c24d0c24c0c24b0c24a0c2490c2480c2470c2460c2450c244,
  0x0c2730c2720c2710c2700c26f0c26e0c26d0c26c0c26b0c26a0c2690c2680c2670c2660c2650c2640c2630c2620c2610c2600c25f0c25e0c25d0c25c,
  0x0c28b0c28a0c2890c2880c2870c2860c2850c2840c2830c2820c2810c2800c27f0c27e0c27d0c27c0c27b0c27a0c2790c2780c2770c2760c2750c274,
  0x0c2a30c2a20c2a10c2a00c29f0c29e0c29d0c29c0c29b0c29a0c2990c2980c2970c2960c2950c2940c2930c2920c2910c2900c28f0c28e0c28d0c28c,
  0x0c2bb0c2ba0c2b90c2b80c2b70c2b60c2b50c2b40c2b30c2b20c2b10c2b00c2af0c2ae0c2ad0c2ac0c2ab0c2aa0c2a90c2a80c2a70c2a60c2a50c2a4,
  0x0c2d30c2d20c2d10c2d00c2cf0c2ce0c2cd0c2cc0c2cb0c2ca0c2c90c2c80c2c70c2c60c2c50c2c40c2c30c2c20c2c10c2c00c2bf0c2be0c2bd0c2bc,
  0x0c2eb0c2ea0c2e90c2e80c2e70c2e60c2e50c2e40c2e30c2e20c2e10c2e00c2df0c2de0c2dd0c2dc0c2db0c2da0c2d90c2d80c2d70c2d60c2d50c2d4,
  0x0c3030c3020c3010c3000c2ff0c2fe0c2fd0c2fc0c2fb0c2fa0c2f90c2f80c2f70c2f60c2f50c2f40c2f30c2f20c2f10c2f00c2ef0c2ee0c2ed0c2ec,
  0x0c31b0c31a0c3190c3180c3170c3160c3150c3140c3130c3120c3110c3100c30f0c30e0c30d0c30c0c30b0c30a0c3090c3080c3070c3060c3050c304,
  0x0c3330c3320c3310c3300c32f0c32e0c32d0c32c0c32b0c32a0c3290c3280c3270c3260c3250c3240c3230c3220c3210c3200c31f0c31e0c31d0c31c,
  0x0c34b0c34a0c3490c3480c3470c3460c3450c3440c3430c3420c3410c3400c33f0c33e0c33d0c33c0c33b0c33a0c3390c3380c3370c3360c3350c334,
  0x0c3630c3620c3610c3600c35f0c35e0c35d0c35c0c35b0c35a0c3590c3580c3570c3560c3550c3540c3530c3520c3510c3500c34f0c34e0c34d0c34c,
  0x0c37b0c37a0c3790c3780c3770c3760c3750c3740c3730c3720c3710c3700c36f0c36e0c36d0c36c0c36b0c36a0c3690c3680c3670c3660c3650c364,
  0x0c3930c3920c3910c3900c38f0c38e0c38d0c38c0c38b0c38a0c3890c3880c3870c3860c3850c3840c3830c3820c3810c3800c37f0c37e0c37d0c37c,
  0x0c3ab0c3aa0c3a90c3a80c3a70c3a60c3a50c3a40c3a30c3a20c3a10c3a00c39f0c39e0c39d0c39c0c39b0c39a0c3990c3980c3970c3960c3950c394,
  0x0c3c30c3c20c3c10c3c00c3bf0c3be0c3bd0c3bc0c3bb0c3ba0c3b90c3b80c3b70c3b60c3b50c3b40c3b30c3b20c3b10c3b00c3af0c3ae0c3ad0c3ac,
  0x0c3db0c3da0c3d90c3d80c3d70c3d60c3d50c3d40c3d30c3d20c3d10c3d00c3cf0c3ce0c3cd0c3cc0c3cb0c3ca0c3c90c3c80c3c70c3c60c3c50c3c4,
  0x0c3f30c3f20c3f10c3f00c3ef0c3ee0c3ed0c3ec0c3eb0c3ea0c3e90c3e80c3e70c3e60c3e50c3e40c3e30c3e20c3e10c3e00c3df0c3de0c3dd0c3dc,
  0x0c40b0c40a0c4090c4080c4070c4060c4050c4040c4030c4020c4010c4000c3ff0c3fe0c3fd0c3fc0c3fb0c3fa0c3f90c3f80c3f70c3f60c3f50c3f4,
  0x0c4230c4220c4210c4200c41f0c41e0c41d0c41c0c41b0c41a0c4190c4180c4170c4160c4150c4140c4130c4120c4110c4100c40f0c40e0c40d0c40c,
  0x0c43b0c43a0c4390c4380c4370c4360c4350c4340c4330c4320c4310c4300c42f0c42e0c42d0c42c0c42b0c42a0c4290c4280c4270c4260c4250c424,
  0x0c4530c4520c4510c4500c44f0c44e0c44d0c44c0c44b0c44a0c4490c4480c4470c4460c4450c4440c4430c4420c4410c4400c43f0c43e0c43d0c43c,
  0x0c46b0c46a0c4690c4680c4670c4660c4650c4640c4630c4620c4610c4600c45f0c45e0c45d0c45c0c45b0c45a0c4590c4580c4570c4560c4550c454,
  0x0c4830c4820c4810c4800c47f0c47e0c47d0c47c0c47b0c47a0c4790c4780c4770c4760c4750c4740c4730c4720c4710c4700c46f0c46e0c46d0c46c,
  0x0c49b0c49a0c4990c4980c4970c4960c4950c4940c4930c4920c4910c4900c48f0c48e0c48d0c48c0c48b0c48a0c4890c4880c4870c4860c4850c484,
  0x0c4b30c4b20c4b10c4b00c4af0c4ae0c4ad0c4ac0c4ab0c4aa0c4a90c4a80c4a70c4a60c4a50c4a40c4a30c4a20c4a10c4a00c49f0c49e0c49d0c49c,
  0x0c4cb0c4ca0c4c90c4c80c4c70c4c60c4c50c4c40c4c30c4c20c4c10c4c00c4bf0c4be0c4bd0c4bc0c4bb0c4ba0c4b90c4b80c4b70c4b60c4b50c4b4,
  0x0c4e30c4e20c4e10c4e00c4df0c4de0c4dd0c4dc0c4db0c4da0c4d90c4d80c4d70c4d60c4d50c4d40c4d30c4d20c4d10c4d00c4cf0c4ce0c4cd0c4cc,
  0x0c4fb0c4fa0c4f90c4f80c4f70c4f60c4f50c4f40c4f30c4f20c4f10c4f00c4ef0c4ee0c4ed0c4ec0c4eb0c4ea0c4e90c4e80c4e70c4e60c4e50c4e4,
  0x0c5130c5120c5110c5100c50f0c50e0c50d0c50c0c50b0c50a0c5090c5080c5070c5060c5050c5040c5030c5020c5010c5000c4ff0c4fe0c4fd0c4fc,
  0x0c52b0c52a0c5290c5280c5270c5260c5250c5240c5230c5220c5210c5200c51f0c51e0c51d0c51c0c51b0c51a0c5190c5180c5170c5160c5150c514,
  0x0c5430c5420c5410c5400c53f0c53e0c53d0c53c0c53b0c53a0c5390c5380c5370c5360c5350c5340c5330c5320c5310c5300c52f0c52e0c52d0c52c,
  0x0c55b0c55a0c5590c5580c5570c5560c5550c5540c5530c5520c5510c5500c54f0c54e0c54d0c54c0c54b0c54a0c5490c5480c5470c5460c5450c544,
  0x0c5730c5720c5710c5700c56f0c56e0c56d0c56c0c56b0c56a0c5690c5680c5670c5660c5650c5640c5630c5620c5610c5600c55f0c55e0c55d0c55c,
  0x0c58b0c58a0c5890c5880c5870c5860c5850c5840c5830c5820c5810c5800c57f0c57e0c57d0c57c0c57b0c57a0c5790c5780c5770c5760c5750c574,
  0x0c5a30c5a20c5a10c5a00c59f0c59e0c59d0c59c0c59b0c59a0c5990c5980c5970c5960c5950c5940c5930c5920c5910c5900c58f0c58e0c58d0c58c,
  0x0c5bb0c5ba0c5b90c5b80c5b70c5b60c5b50c5b40c5b30c5b20c5b10c5b00c5af0c5ae0c5ad0c5ac0c5ab0c5aa0c5a90c5a80c5a70c5a60c5a50c5a4,
  0x0c5d30c5d20c5d10c5d00c5cf0c5ce0c5cd0c5cc0c5cb0c5ca0c5c90c5c80c5c70c5c60c5c50c5c40c5c30c5c20c5c10c5c00c5bf0c5be0c5bd0c5bc,
  0x0c5eb0c5ea0c5e90c5e80c5e70c5e60c5e50c5e40c5e30c5e20c5e10c5e00c5df0c5de0c5dd0c5dc0c5db0c5da0c5d90c5d80c5d70c5d60c5d50c5d4,
  0x0c6030c6020c6010c6000c5ff0c5fe0c5fd0c5fc0c5fb0c5fa0c5f90c5f80c5f70c5f60c5f50c5f40c5f30c5f20c5f10c5f00c5ef0c5ee0c5ed0c5ec,
  0x0c61b0c61a0c6190c6180c6170c6160c6150c6140c6130c6120c6110c6100c60f0c60e0c60d0c60c0c60b0c60a0c6090c6080c6070c6060c6050c604,
  0x0c6330c6320c6310c6300c62f0c62e0c62d0c62c0c62b0c62a0c6290c6280c6270c6260c6250c6240c6230c6220c6210c6200c61f0c61e0c61d0c61c,
  0x0c64b0c64a0c6490c6480c6470c6460c6450c6440c6430c6420c6410c6400c63f0c63e0c63d0c63c0c63b0c63a0c6390c6380c6370c6360c6350c634,
  0x0c6630c6620c6610c6600c65f0c65e0c65d0c65c0c65b0c65a0c6590c6580c6570c6560c6550c6540c6530c6520c6510c6500c64f0c64e0c64d0c64c,
  0x0c67b0c67a0c6790c6780c6770c6760c6750c6740c6730c6720c6710c6700c66f0c66e0c66d0c66c0c66b0c66a0c6690c6680c6670c6660c6650c664,
  0x0c6930c6920c6910c6900c68f0c68e0c68d0c68c0c68b0c68a0c6890c6880c6870c6860c6850c6840c6830c6820c6810c6800c67f0c67e0c67d0c67c,
  0x0c6ab0c6aa0c6a90c6a80c6a70c6a60c6a50c6a40c6a30c6a20c6a10c6a00c69f0c69e0c69d0c69c0c69b0c69a0c6990c6980c6970c6960c6950c694,
  0x0c6c30c6c20c6c10c6c00c6bf0c6be0c6bd0c6bc0c6bb0c6ba0c6b90c6b80c6b70c6b60c6b50c6b40c6b30c6b20c6b10c6b00c6af0c6ae0c6ad0c6ac,
  0x0c6db0c6da0c6d90c6d80c6d70c6d60c6d50c6d40c6d30c6d20c6d10c6d00c6cf0c6ce0c6cd0c6cc0c6cb0c6ca0c6c90c6c80c6c70c6c60c6c50c6c4,
  0x0c6f30c6f20c6f10c6f00c6ef0c6ee0c6ed0c6ec0c6eb0c6ea0c6e90c6e80c6e70c6e60c6e50c6e40c6e30c6e20c6e10c6e00c6df0c6de0c6dd0c6dc,
  0x0c70b0c70a0c7090c7080c7070c7060c7050c7040c7030c7020c7010c7000c6ff0c6fe0c6fd0c6fc0c6fb0c6fa0c6f90c6f80c6f70c6f60c6f50c6f4,
  0x0c7230c7220c7210c7200c71f0c71e0c71d0c71c0c71b0c71a0c7190c7180c7170c7160c7150c7140c7130c7120c7110c7100c70f0c70e0c70d0c70c,
  0x0c73b0c73a0c7390c7380c7370c7360c7350c7340c7330c7320c7310c7300c72f0c72e0c72d0c72c0c72b0c72a0c7290c7280c7270c7260c7250c724,
  0x0c7530c7520c7510c7500c74f0c74e0c74d0c74c0c74b0c74a0c7490c7480c7470c7460c7450c7440c7430c7420c7410c7400c73f0c73e0c73d0c73c,
  0x0c76b0c76a0c7690c7680c7670c7660c7650c7640c7630c7620c7610c7600c75f0c75e0c75d0c75c0c75b0c75a0c7590c7580c7570c7560c7550c754,
  0x0c7830c7820c7810c7800c77f0c77e0c77d0c77c0c77b0c77a0c7790c7780c7770c7760c7750c7740c7730c7720c7710c7700c76f0c76e0c76d0c76c,
  0x0c79b0c79a0c7990c7980c7970c7960c7950c7940c7930c7920c7910c7900c78f0c78e0c78d0c78c0c78b0c78a0c7890c7880c7870c7860c7850c784,
  0x0c7b30c7b20c7b10c7b00c7af0c7ae0c7ad0c7ac0c7ab0c7aa0c7a90c7a80c7a70c7a60c7a50c7a40c7a30c7a20c7a10c7a00c79f0c79e0c79d0c79c,
  0x0c7cb0c7ca0c7c90c7c80c7c70c7c60c7c50c7c40c7c30c7c20c7c10c7c00c7bf0c7be0c7bd0c7bc0c7bb0c7ba0c7b90c7b80c7b70c7b60c7b50c7b4,
  0x0c7e30c7e20c7e10c7e00c7df0c7de0c7dd0c7dc0c7db0c7da0c7d90c7d80c7d70c7d60c7d50c7d40c7d30c7d20c7d10c7d00c7cf0c7ce0c7cd0c7cc,
  0x0c7fb0c7fa0c7f90c7f80c7f70c7f60c7f50c7f40c7f30c7f20c7f10c7f00c7ef0c7ee0c7ed0c7ec0c7eb0c7ea0c7e90c7e80c7e70c7e60c7e50c7e4,
  0x0c8130c8120c8110c8100c80f0c80e0c80d0c80c0c80b0c80a0c8090c8080c8070c8060c8050c8040c8030c8020c8010c8000c7ff0c7fe0c7fd0c7fc,
  0x0c82b0c82a0c8290c8280c8270c8260c8250c8240c8230c8220c8210c8200c81f0c81e0c81d0c81c0c81b0c81a0c8190c8180c8170c8160c8150c814,
  0x0c8430c8420c8410c8400c83f0c83e0c83d0c83c0c83b0c83a0c8390c8380c8370c8360c8350c8340c8330c8320c8310c8300c82f0c82e0c82d0c82c,
  0x0c85b0c85a0c8590c8580c8570c8560c8550c8540c8530c8520c8510c8500c84f0c84e0c84d0c84c0c84b0c84a0c8490c8480c8470c8460c8450c844,
  0x0c8730c8720c8710c8700c86f0c86e0c86d0c86c0c86b0c86a0c8690c8680c8670c8660c8650c8640c8630c8620c8610c8600c85f0c85e0c85d0c85c,
  0x0c88b0c88a0c8890c8880c8870c8860c8850c8840c8830c8820c8810c8800c87f0c87e0c87d0c87c0c87b0c87a0c8790c8780c8770c8760c8750c874,
  0x0c8a30c8a20c8a10c8a00c89f0c89e0c89d0c89c0c89b0c89a0c8990c8980c8970c8960c8950c8940c8930c8920c8910c8900c88f0c88e0c88d0c88c,
  0x0c8bb0c8ba0c8b90c8b80c8b70c8b60c8b50c8b40c8b30c8b20c8b10c8b00c8af0c8ae0c8ad0c8ac0c8ab0c8aa0c8a90c8a80c8a70c8a60c8a50c8a4,
  0x0c8d30c8d20c8d10c8d00c8cf0c8ce0c8cd0c8cc0c8cb0c8ca0c8c90c8c80c8c70c8c60c8c50c8c40c8c30c8c20c8c10c8c00c8bf0c8be0c8bd0c8bc,
  0x0c8eb0c8ea0c8e90c8e80c8e70c8e60c8e50c8e40c8e30c8e20c8e10c8e00c8df0c8de0c8dd0c8dc0c8db0c8da0c8d90c8d80c8d70c8d60c8d50c8d4,
  0x0c9030c9020c9010c9000c8ff0c8fe0c8fd0c8fc0c8fb0c8fa0c8f90c8f80c8f70c8f60c8f50c8f40c8f30c8f20c8f10c8f00c8ef0c8ee0c8ed0c8ec,
  0x0c91b0c91a0c9190c9180c9170c9160c9150c9140c9130c9120c9110c9100c90f0c90e0c90d0c90c0c90b0c90a0c9090c9080c9070c9060c9050c904,
  0x0c9330c9320c9310c9300c92f0c92e0c92d0c92c0c92b0c92a0c9290c9280c9270c9260c9250c9240c9230c9220c9210c9200c91f0c91e0c91d0c91c,
  0x0c94b0c94a0c9490c9480c9470c9460c9450c9440c9430c9420c9410c9400c93f0c93e0c93d0c93c0c93b0c93a0c9390c9380c9370c9360c9350c934,
  0x0c9630c9620c9610c9600c95f0c95e0c95d0c95c0c95b0c95a0c9590c9580c9570c9560c9550c9540c9530c9520c9510c9500c94f0c94e0c94d0c94c,
  0x0c97b0c97a0c9790c9780c9770c9760c9750c9740c9730c9720c9710c9700c96f0c96e0c96d0c96c0c96b0c96a0c9690c9680c9670c9660c9650c964,
  0x0c9930c9920c9910c9900c98f0c98e0c98d0c98c0c98b0c98a0c9890c9880c9870c9860c9850c9840c9830c9820c9810c9800c97f0c97e0c97d0c97c,
  0x0c9ab0c9aa0c9a90c9a80c9a70c9a60c9a50c9a40c9a30c9a20c9a10c9a00c99f0c99e0c99d0c99c0c99b0c99a0c9990c9980c9970c9960c9950c994,
  0x0c9c30c9c20c9c10c9c00c9bf0c9be0c9bd0c9bc0c9bb0c9ba0c9b90c9b80c9b70c9b60c9b50c9b40c9b30c9b20c9b10c9b00c9af0c9ae0c9ad0c9ac,
  0x0c9db0c9da0c9d90c9d80c9d70c9d60c9d50c9d40c9d30c9d20c9d10c9d00c9cf0c9ce0c9cd0c9cc0c9cb0c9ca0c9c90c9c80c9c70c9c60c9c50c9c4,
  0x0c9f30c9f20c9f10c9f00c9ef0c9ee0c9ed0c9ec0c9eb0c9ea0c9e90c9e80c9e70c9e60c9e50c9e40c9e30c9e20c9e10c9e00c9df0c9de0c9dd0c9dc,
  0x0ca0b0ca0a0ca090ca080ca070ca060ca050ca040ca030ca020ca010ca000c9ff0c9fe0c9fd0c9fc0c9fb0c9fa0c9f90c9f80c9f70c9f60c9f50c9f4,
  0x0ca230ca220ca210ca200ca1f0ca1e0ca1d0ca1c0ca1b0ca1a0ca190ca180ca170ca160ca150ca140ca130ca120ca110ca100ca0f0ca0e0ca0d0ca0c,
  0x0ca3b0ca3a0ca390ca380ca370ca360ca350ca340ca330ca320ca310ca300ca2f0ca2e0ca2d0ca2c0ca2b0ca2a0ca290ca280ca270ca260ca250ca24,
  0x0ca530ca520ca510ca500ca4f0ca4e0ca4d0ca4c0ca4b0ca4a0ca490ca480ca470ca460ca450ca440ca430ca420ca410ca400ca3f0ca3e0ca3d0ca3c,
  0x0ca6b0ca6a0ca690ca680ca670ca660ca650ca640ca630ca620ca610ca600ca5f0ca5e0ca5d0ca5c0ca5b0ca5a0ca590ca580ca570ca560ca550ca54,
  0x0ca830ca820ca810ca800ca7f0ca7e0ca7d0ca7c0ca7b0ca7a0ca790ca780ca770ca760ca750ca740ca730ca720ca710ca700ca6f0ca6e0ca6d0ca6c,
  0x0ca9b0ca9a0ca990ca980ca970ca960ca950ca940ca930ca920ca910ca900ca8f0ca8e0ca8d0ca8c0ca8b0ca8a0ca890ca880ca870ca860ca850ca84,
  0x0cab30cab20cab10cab00caaf0caae0caad0caac0caab0caaa0caa90caa80caa70caa60caa50caa40caa30caa20caa10caa00ca9f0ca9e0ca9d0ca9c,
  0x0cacb0caca0cac90cac80cac70cac60cac50cac40cac30cac20cac10cac00cabf0cabe0cabd0cabc0cabb0caba0cab90cab80cab70cab60cab50cab4,
  0x0cae30cae20cae10cae00cadf0cade0cadd0cadc0cadb0cada0cad90cad80cad70cad60cad50cad40cad30cad20cad10cad00cacf0cace0cacd0cacc,
  0x0cafb0cafa0caf90caf80caf70caf60caf50caf40caf30caf20caf10caf00caef0caee0caed0caec0caeb0caea0cae90cae80cae70cae60cae50cae4,
  0x0cb130cb120cb110cb100cb0f0cb0e0cb0d0cb0c0cb0b0cb0a0cb090cb080cb070cb060cb050cb040cb030cb020cb010cb000caff0cafe0cafd0cafc,
  0x0cb2b0cb2a0cb290cb280cb270cb260cb250cb240cb230cb220cb210cb200cb1f0cb1e0cb1d0cb1c0cb1b0cb1a0cb190cb180cb170cb160cb150cb14,
  0x0cb430cb420cb410cb400cb3f0cb3e0cb3d0cb3c0cb3b0cb3a0cb390cb380cb370cb360cb350cb340cb330cb320cb310cb300cb2f0cb2e0cb2d0cb2c,
  0x0cb5b0cb5a0cb590cb580cb570cb560cb550cb540cb530cb520cb510cb500cb4f0cb4e0cb4d0cb4c0cb4b0cb4a0cb490cb480cb470cb460cb450cb44,
  0x0cb730cb720cb710cb700cb6f0cb6e0cb6d0cb6c0cb6b0cb6a0cb690cb680cb670cb660cb650cb640cb630cb620cb610cb600cb5f0cb5e0cb5d0cb5c,
  0x0cb8b0cb8a0cb890cb880cb870cb860cb850cb840cb830cb820cb810cb800cb7f0cb7e0cb7d0cb7c0cb7b0cb7a0cb790cb780cb770cb760cb750cb74,
  0x0cba30cba20cba10cba00cb9f0cb9e0cb9d0cb9c0cb9b0cb9a0cb990cb980cb970cb960cb950cb940cb930cb920cb910cb900cb8f0cb8e0cb8d0cb8c,
  0x0cbbb0cbba0cbb90cbb80cbb70cbb60cbb50cbb40cbb30cbb20cbb10cbb00cbaf0cbae0cbad0cbac0cbab0cbaa0cba90cba80cba70cba60cba50cba4,
  0x0cbd30cbd20cbd10cbd00cbcf0cbce0cbcd0cbcc0cbcb0cbca0cbc90cbc80cbc70cbc60cbc50cbc40cbc30cbc20cbc10cbc00cbbf0cbbe0cbbd0cbbc,
  0x0cbeb0cbea0cbe90cbe80cbe70cbe60cbe50cbe40cbe30cbe20cbe10cbe00cbdf0cbde0cbdd0cbdc0cbdb0cbda0cbd90cbd80cbd70cbd60cbd50cbd4,
  0x0cc030cc020cc010cc000cbff0cbfe0cbfd0cbfc0cbfb0cbfa0cbf90cbf80cbf70cbf60cbf50cbf40cbf30cbf20cbf10cbf00cbef0cbee0cbed0cbec,
  0x0cc1b0cc1a0cc190cc180cc170cc160cc150cc140cc130cc120cc110cc100cc0f0cc0e0cc0d0cc0c0cc0b0cc0a0cc090cc080cc070cc060cc050cc04,
  0x0cc330cc320cc310cc300cc2f0cc2e0cc2d0cc2c0cc2b0cc2a0cc290cc280cc270cc260cc250cc240cc230cc220cc210cc200cc1f0cc1e0cc1d0cc1c,
  0x0cc4b0cc4a0cc490cc480cc470cc460cc450cc440cc430cc420cc410cc400cc3f0cc3e0cc3d0cc3c0cc3b0cc3a0cc390cc380cc370cc360cc350cc34,
  0x0cc630cc620cc610cc600cc5f0cc5e0cc5d0cc5c0cc5b0cc5a0cc590cc580cc570cc560cc550cc540cc530cc520cc510cc500cc4f0cc4e0cc4d0cc4c,
  0x0cc7b0cc7a0cc790cc780cc770cc760cc750cc740cc730cc720cc710cc700cc6f0cc6e0cc6d0cc6c0cc6b0cc6a0cc690cc680cc670cc660cc650cc64,
  0x0cc930cc920cc910cc900cc8f0cc8e0cc8d0cc8c0cc8b0cc8a0cc890cc880cc870cc860cc850cc840cc830cc820cc810cc800cc7f0cc7e0cc7d0cc7c,
  0x0ccab0ccaa0cca90cca80cca70cca60cca50cca40cca30cca20cca10cca00cc9f0cc9e0cc9d0cc9c0cc9b0cc9a0cc990cc980cc970cc960cc950cc94,
  0x0ccc30ccc20ccc10ccc00ccbf0ccbe0ccbd0ccbc0ccbb0ccba0ccb90ccb80ccb70ccb60ccb50ccb40ccb30ccb20ccb10ccb00ccaf0ccae0ccad0ccac,
  0x0ccdb0ccda0ccd90ccd80ccd70ccd60ccd50ccd40ccd30ccd20ccd10ccd00cccf0ccce0cccd0cccc0cccb0ccca0ccc90ccc80ccc70ccc60ccc50ccc4,
  0x0ccf30ccf20ccf10ccf00ccef0ccee0cced0ccec0cceb0ccea0cce90cce80cce70cce60cce50cce40cce30cce20cce10cce00ccdf0ccde0ccdd0ccdc,
  0x0cd0b0cd0a0cd090cd080cd070cd060cd050cd040cd030cd020cd010cd000ccff0ccfe0ccfd0ccfc0ccfb0ccfa0ccf90ccf80ccf70ccf60ccf50ccf4,
  0x0cd230cd220cd210cd200cd1f0cd1e0cd1d0cd1c0cd1b0cd1a0cd190cd180cd170cd160cd150cd140cd130cd120cd110cd100cd0f0cd0e0cd0d0cd0c,
  0x0cd3b0cd3a0cd390cd380cd370cd360cd350cd340cd330cd320cd310cd300cd2f0cd2e0cd2d0cd2c0cd2b0cd2a0cd290cd280cd270cd260cd250cd24,
  0x0cd530cd520cd510cd500cd4f0cd4e0cd4d0cd4c0cd4b0cd4a0cd490cd480cd470cd460cd450cd440cd430cd420cd410cd400cd3f0cd3e0cd3d0cd3c,
  0x0cd6b0cd6a0cd690cd680cd670cd660cd650cd640cd630cd620cd610cd600cd5f0cd5e0cd5d0cd5c0cd5b0cd5a0cd590cd580cd570cd560cd550cd54,
  0x0cd830cd820cd810cd800cd7f0cd7e0cd7d0cd7c0cd7b0cd7a0cd790cd780cd770cd760cd750cd740cd730cd720cd710cd700cd6f0cd6e0cd6d0cd6c,
  0x0cd9b0cd9a0cd990cd980cd970cd960cd950cd940cd930cd920cd910cd900cd8f0cd8e0cd8d0cd8c0cd8b0cd8a0cd890cd880cd870cd860cd850cd84,
  0x0cdb30cdb20cdb10cdb00cdaf0cdae0cdad0cdac0cdab0cdaa0cda90cda80cda70cda60cda50cda40cda30cda20cda10cda00cd9f0cd9e0cd9d0cd9c,
  0x0cdcb0cdca0cdc90cdc80cdc70cdc60cdc50cdc40cdc30cdc20cdc10cdc00cdbf0cdbe0cdbd0cdbc0cdbb0cdba0cdb90cdb80cdb70cdb60cdb50cdb4,
  0x0cde30cde20cde10cde00cddf0cdde0cddd0cddc0cddb0cdda0cdd90cdd80cdd70cdd60cdd50cdd40cdd30cdd20cdd10cdd00cdcf0cdce0cdcd0cdcc,
  0x0cdfb0cdfa0cdf90cdf80cdf70cdf60cdf50cdf40cdf30cdf20cdf10cdf00cdef0cdee0cded0cdec0cdeb0cdea0cde90cde80cde70cde60cde50cde4,
  0x0ce130ce120ce110ce100ce0f0ce0e0ce0d0ce0c0ce0b0ce0a0ce090ce080ce070ce060ce050ce040ce030ce020ce010ce000cdff0cdfe0cdfd0cdfc,
  0x0ce2b0ce2a0ce290ce280ce270ce260ce250ce240ce230ce220ce210ce200ce1f0ce1e0ce1d0ce1c0ce1b0ce1a0ce190ce180ce170ce160ce150ce14,
  0x0ce430ce420ce410ce400ce3f0ce3e0ce3d0ce3c0ce3b0ce3a0ce390ce380ce370ce360ce350ce340ce330ce320ce310ce300ce2f0ce2e0ce2d0ce2c,
  0x0ce5b0ce5a0ce590ce580ce570ce560ce550ce540ce530ce520ce510ce500ce4f0ce4e0ce4d0ce4c0ce4b0ce4a0ce490ce480ce470ce460ce450ce44,
  0x0ce730ce720ce710ce700ce6f0ce6e0ce6d0ce6c0ce6b0ce6a0ce690ce680ce670ce660ce650ce640ce630ce620ce610ce600ce5f0ce5e0ce5d0ce5c,
  0x0ce8b0ce8a0ce890ce880ce870ce860ce850ce840ce830ce820ce810ce800ce7f0ce7e0ce7d0ce7c0ce7b0ce7a0ce790ce780ce770ce760ce750ce74,
  0x0cea30cea20cea10cea00ce9f0ce9e0ce9d0ce9c0ce9b0ce9a0ce990ce980ce970ce960ce950ce940ce930ce920ce910ce900ce8f0ce8e0ce8d0ce8c,
  0x0cebb0ceba0ceb90ceb80ceb70ceb60ceb50ceb40ceb30ceb20ceb10ceb00ceaf0ceae0cead0ceac0ceab0ceaa0cea90cea80cea70cea60cea50cea4,
  0x0ced30ced20ced10ced00cecf0cece0cecd0cecc0cecb0ceca0cec90cec80cec70cec60cec50cec40cec30cec20cec10cec00cebf0cebe0cebd0cebc,
  0x0ceeb0ceea0cee90cee80cee70cee60cee50cee40cee30cee20cee10cee00cedf0cede0cedd0cedc0cedb0ceda0ced90ced80ced70ced60ced50ced4,
  0x0cf030cf020cf010cf000ceff0cefe0cefd0cefc0cefb0cefa0cef90cef80cef70cef60cef50cef40cef30cef20cef10cef00ceef0ceee0ceed0ceec,
  0x0cf1b0cf1a0cf190cf180cf170cf160cf150cf140cf130cf120cf110cf100cf0f0cf0e0cf0d0cf0c0cf0b0cf0a0cf090cf080cf070cf060cf050cf04,
  0x0cf330cf320cf310cf300cf2f0cf2e0cf2d0cf2c0cf2b0cf2a0cf290cf280cf270cf260cf250cf240cf230cf220cf210cf200cf1f0cf1e0cf1d0cf1c,
  0x0cf4b0cf4a0cf490cf480cf470cf460cf450cf440cf430cf420cf410cf400cf3f0cf3e0cf3d0cf3c0cf3b0cf3a0cf390cf380cf370cf360cf350cf34,
  0x0cf630cf620cf610cf600cf5f0cf5e0cf5d0cf5c0cf5b0cf5a0cf590cf580cf570cf560cf550cf540cf530cf520cf510cf500cf4f0cf4e0cf4d0cf4c,
  0x0cf7b0cf7a0cf790cf780cf770cf760cf750cf740cf730cf720cf710cf700cf6f0cf6e0cf6d0cf6c0cf6b0cf6a0cf690cf680cf670cf660cf650cf64,
  0x0cf930cf920cf910cf900cf8f0cf8e0cf8d0cf8c0cf8b0cf8a0cf890cf880cf870cf860cf850cf840cf830cf820cf810cf800cf7f0cf7e0cf7d0cf7c,
  0x0cfab0cfaa0cfa90cfa80cfa70cfa60cfa50cfa40cfa30cfa20cfa10cfa00cf9f0cf9e0cf9d0cf9c0cf9b0cf9a0cf990cf980cf970cf960cf950cf94,
  0x0cfc30cfc20cfc10cfc00cfbf0cfbe0cfbd0cfbc0cfbb0cfba0cfb90cfb80cfb70cfb60cfb50cfb40cfb30cfb20cfb10cfb00cfaf0cfae0cfad0cfac,
  0x0cfdb0cfda0cfd90cfd80cfd70cfd60cfd50cfd40cfd30cfd20cfd10cfd00cfcf0cfce0cfcd0cfcc0cfcb0cfca0cfc90cfc80cfc70cfc60cfc50cfc4,
  0x0cff30cff20cff10cff00cfef0cfee0cfed0cfec0cfeb0cfea0cfe90cfe80cfe70cfe60cfe50cfe40cfe30cfe20cfe10cfe00cfdf0cfde0cfdd0cfdc,
  0x0d00b0d00a0d0090d0080d0070d0060d0050d0040d0030d0020d0010d0000cfff0cffe0cffd0cffc0cffb0cffa0cff90cff80cff70cff60cff50cff4,
  0x0d0230d0220d0210d0200d01f0d01e0d01d0d01c0d01b0d01a0d0190d0180d0170d0160d0150d0140d0130d0120d0110d0100d00f0d00e0d00d0d00c,
  0x0d03b0d03a0d0390d0380d0370d0360d0350d0340d0330d0320d0310d0300d02f0d02e0d02d0d02c0d02b0d02a0d0290d0280d0270d0260d0250d024,
  0x0d0530d0520d0510d0500d04f0d04e0d04d0d04c0d04b0d04a0d0490d0480d0470d0460d0450d0440d0430d0420d0410d0400d03f0d03e0d03d0d03c,
  0x0d06b0d06a0d0690d0680d0670d0660d0650d0640d0630d0620d0610d0600d05f0d05e0d05d0d05c0d05b0d05a0d0590d0580d0570d0560d0550d054,
  0x0d0830d0820d0810d0800d07f0d07e0d07d0d07c0d07b0d07a0d0790d0780d0770d0760d0750d0740d0730d0720d0710d0700d06f0d06e0d06d0d06c,
  0x0d09b0d09a0d0990d0980d0970d0960d0950d0940d0930d0920d0910d0900d08f0d08e0d08d0d08c0d08b0d08a0d0890d0880d0870d0860d0850d084,
  0x0d0b30d0b20d0b10d0b00d0af0d0ae0d0ad0d0ac0d0ab0d0aa0d0a90d0a80d0a70d0a60d0a50d0a40d0a30d0a20d0a10d0a00d09f0d09e0d09d0d09c,
  0x0d0cb0d0ca0d0c90d0c80d0c70d0c60d0c50d0c40d0c30d0c20d0c10d0c00d0bf0d0be0d0bd0d0bc0d0bb0d0ba0d0b90d0b80d0b70d0b60d0b50d0b4,
  0x0d0e30d0e20d0e10d0e00d0df0d0de0d0dd0d0dc0d0db0d0da0d0d90d0d80d0d70d0d60d0d50d0d40d0d30d0d20d0d10d0d00d0cf0d0ce0d0cd0d0cc,
  0x0d0fb0d0fa0d0f90d0f80d0f70d0f60d0f50d0f40d0f30d0f20d0f10d0f00d0ef0d0ee0d0ed0d0ec0d0eb0d0ea0d0e90d0e80d0e70d0e60d0e50d0e4,
  0x0d1130d1120d1110d1100d10f0d10e0d10d0d10c0d10b0d10a0d1090d1080d1070d1060d1050d1040d1030d1020d1010d1000d0ff0d0fe0d0fd0d0fc,
  0x0d12b0d12a0d1290d1280d1270d1260d1250d1240d1230d1220d1210d1200d11f0d11e0d11d0d11c0d11b0d11a0d1190d1180d1170d1160d1150d114,
  0x0d1430d1420d1410d1400d13f0d13e0d13d0d13c0d13b0d13a0d1390d1380d1370d1360d1350d1340d1330d1320d1310d1300d12f0d12e0d12d0d12c,
  0x0d15b0d15a0d1590d1580d1570d1560d1550d1540d1530d1520d1510d1500d14f0d14e0d14d0d14c0d14b0d14a0d1490d1480d1470d1460d1450d144,
  0x0d1730d1720d1710d1700d16f0d16e0d16d0d16c0d16b0d16a0d1690d1680d1670d1660d1650d1640d1630d1620d1610d1600d15f0d15e0d15d0d15c,
  0x0d18b0d18a0d1890d1880d1870d1860d1850d1840d1830d1820d1810d1800d17f0d17e0d17d0d17c0d17b0d17a0d1790d1780d1770d1760d1750d174,
  0x0d1a30d1a20d1a10d1a00d19f0d19e0d19d0d19c0d19b0d19a0d1990d1980d1970d1960d1950d1940d1930d1920d1910d1900d18f0d18e0d18d0d18c,
  0x0d1bb0d1ba0d1b90d1b80d1b70d1b60d1b50d1b40d1b30d1b20d1b10d1b00d1af0d1ae0d1ad0d1ac0d1ab0d1aa0d1a90d1a80d1a70d1a60d1a50d1a4,
  0x0d1d30d1d20d1d10d1d00d1cf0d1ce0d1cd0d1cc0d1cb0d1ca0d1c90d1c80d1c70d1c60d1c50d1c40d1c30d1c20d1c10d1c00d1bf0d1be0d1bd0d1bc,
  0x0d1eb0d1ea0d1e90d1e80d1e70d1e60d1e50d1e40d1e30d1e20d1e10d1e00d1df0d1de0d1dd0d1dc0d1db0d1da0d1d90d1d80d1d70d1d60d1d50d1d4,
  0x0d2030d2020d2010d2000d1ff0d1fe0d1fd0d1fc0d1fb0d1fa0d1f90d1f80d1f70d1f60d1f50d1f40d1f30d1f20d1f10d1f00d1ef0d1ee0d1ed0d1ec,
  0x0d21b0d21a0d2190d2180d2170d2160d2150d2140d2130d2120d2110d2100d20f0d20e0d20d0d20c0d20b0d20a0d2090d2080d2070d2060d2050d204,
  0x0d2330d2320d2310d2300d22f0d22e0d22d0d22c0d22b0d22a0d2290d2280d2270d2260d2250d2240d2230d2220d2210d2200d21f0d21e0d21d0d21c,
  0x0d24b0d24a0d2490d2480d2470d2460d2450d2440d2430d2420d2410d2400d23f0d23e0d23d0d23c0d23b0d23a0d2390d2380d2370d2360d2350d234,
  0x0d2630d2620d2610d2600d25f0d25e0d25d0d25c0d25b0d25a0d2590d2580d2570d2560d2550d2540d2530d2520d2510d2500d24f0d24e0d24d0d24c,
  0x0d27b0d27a0d2790d2780d2770d2760d2750d2740d2730d2720d2710d2700d26f0d26e0d26d0d26c0d26b0d26a0d2690d2680d2670d2660d2650d264,
  0x0d2930d2920d2910d2900d28f0d28e0d28d0d28c0d28b0d28a0d2890d2880d2870d2860d2850d2840d2830d2820d2810d2800d27f0d27e0d27d0d27c,
  0x0d2ab0d2aa0d2a90d2a80d2a70d2a60d2a50d2a40d2a30d2a20d2a10d2a00d29f0d29e0d29d0d29c0d29b0d29a0d2990d2980d2970d2960d2950d294,
  0x0d2c30d2c20d2c10d2c00d2bf0d2be0d2bd0d2bc0d2bb0d2ba0d2b90d2b80d2b70d2b60d2b50d2b40d2b30d2b20d2b10d2b00d2af0d2ae0d2ad0d2ac,
  0x0d2db0d2da0d2d90d2d80d2d70d2d60d2d50d2d40d2d30d2d20d2d10d2d00d2cf0d2ce0d2cd0d2cc0d2cb0d2ca0d2c90d2c80d2c70d2c60d2c50d2c4,
  0x0d2f30d2f20d2f10d2f00d2ef0d2ee0d2ed0d2ec0d2eb0d2ea0d2e90d2e80d2e70d2e60d2e50d2e40d2e30d2e20d2e10d2e00d2df0d2de0d2dd0d2dc,
  0x0d30b0d30a0d3090d3080d3070d3060d3050d3040d3030d3020d3010d3000d2ff0d2fe0d2fd0d2fc0d2fb0d2fa0d2f90d2f80d2f70d2f60d2f50d2f4,
  0x0d3230d3220d3210d3200d31f0d31e0d31d0d31c0d31b0d31a0d3190d3180d3170d3160d3150d3140d3130d3120d3110d3100d30f0d30e0d30d0d30c,
  0x0d33b0d33a0d3390d3380d3370d3360d3350d3340d3330d3320d3310d3300d32f0d32e0d32d0d32c0d32b0d32a0d3290d3280d3270d3260d3250d324,
  0x0d3530d3520d3510d3500d34f0d34e0d34d0d34c0d34b0d34a0d3490d3480d3470d3460d3450d3440d3430d3420d3410d3400d33f0d33e0d33d0d33c,
  0x0d36b0d36a0d3690d3680d3670d3660d3650d3640d3630d3620d3610d3600d35f0d35e0d35d0d35c0d35b0d35a0d3590d3580d3570d3560d3550d354,
  0x0d3830d3820d3810d3800d37f0d37e0d37d0d37c0d37b0d37a0d3790d3780d3770d3760d3750d3740d3730d3720d3710d3700d36f0d36e0d36d0d36c,
  0x0d39b0d39a0d3990d3980d3970d3960d3950d3940d3930d3920d3910d3900d38f0d38e0d38d0d38c0d38b0d38a0d3890d3880d3870d3860d3850d384,
  0x0d3b30d3b20d3b10d3b00d3af0d3ae0d3ad0d3ac0d3ab0d3aa0d3a90d3a80d3a70d3a60d3a50d3a40d3a30d3a20d3a10d3a00d39f0d39e0d39d0d39c,
  0x0d3cb0d3ca0d3c90d3c80d3c70d3c60d3c50d3c40d3c30d3c20d3c10d3c00d3bf0d3be0d3bd0d3bc0d3bb0d3ba0d3b90d3b80d3b70d3b60d3b50d3b4,
  0x0d3e30d3e20d3e10d3e00d3df0d3de0d3dd0d3dc0d3db0d3da0d3d90d3d80d3d70d3d60d3d50d3d40d3d30d3d20d3d10d3d00d3cf0d3ce0d3cd0d3cc,
  0x0d3fb0d3fa0d3f90d3f80d3f70d3f60d3f50d3f40d3f30d3f20d3f10d3f00d3ef0d3ee0d3ed0d3ec0d3eb0d3ea0d3e90d3e80d3e70d3e60d3e50d3e4,
  0x0d4130d4120d4110d4100d40f0d40e0d40d0d40c0d40b0d40a0d4090d4080d4070d4060d4050d4040d4030d4020d4010d4000d3ff0d3fe0d3fd0d3fc,
  0x0d42b0d42a0d4290d4280d4270d4260d4250d4240d4230d4220d4210d4200d41f0d41e0d41d0d41c0d41b0d41a0d4190d4180d4170d4160d4150d414,
  0x0d4430d4420d4410d4400d43f0d43e0d43d0d43c0d43b0d43a0d4390d4380d4370d4360d4350d4340d4330d4320d4310d4300d42f0d42e0d42d0d42c,
  0x0d45b0d45a0d4590d4580d4570d4560d4550d4540d4530d4520d4510d4500d44f0d44e0d44d0d44c0d44b0d44a0d4490d4480d4470d4460d4450d444,
  0x0d4730d4720d4710d4700d46f0d46e0d46d0d46c0d46b0d46a0d4690d4680d4670d4660d4650d4640d4630d4620d4610d4600d45f0d45e0d45d0d45c,
  0x0d48b0d48a0d4890d4880d4870d4860d4850d4840d4830d4820d4810d4800d47f0d47e0d47d0d47c0d47b0d47a0d4790d4780d4770d4760d4750d474,
  0x0d4a30d4a20d4a10d4a00d49f0d49e0d49d0d49c0d49b0d49a0d4990d4980d4970d4960d4950d4940d4930d4920d4910d4900d48f0d48e0d48d0d48c,
  0x0d4bb0d4ba0d4b90d4b80d4b70d4b60d4b50d4b40d4b30d4b20d4b10d4b00d4af0d4ae0d4ad0d4ac0d4ab0d4aa0d4a90d4a80d4a70d4a60d4a50d4a4,
  0x0d4d30d4d20d4d10d4d00d4cf0d4ce0d4cd0d4cc0d4cb0d4ca0d4c90d4c80d4c70d4c60d4c50d4c40d4c30d4c20d4c10d4c00d4bf0d4be0d4bd0d4bc,
  0x0d4eb0d4ea0d4e90d4e80d4e70d4e60d4e50d4e40d4e30d4e20d4e10d4e00d4df0d4de0d4dd0d4dc0d4db0d4da0d4d90d4d80d4d70d4d60d4d50d4d4,
  0x0d5030d5020d5010d5000d4ff0d4fe0d4fd0d4fc0d4fb0d4fa0d4f90d4f80d4f70d4f60d4f50d4f40d4f30d4f20d4f10d4f00d4ef0d4ee0d4ed0d4ec,
  0x0d51b0d51a0d5190d5180d5170d5160d5150d5140d5130d5120d5110d5100d50f0d50e0d50d0d50c0d50b0d50a0d5090d5080d5070d5060d5050d504,
  0x0d5330d5320d5310d5300d52f0d52e0d52d0d52c0d52b0d52a0d5290d5280d5270d5260d5250d5240d5230d5220d5210d5200d51f0d51e0d51d0d51c,
  0x0d54b0d54a0d5490d5480d5470d5460d5450d5440d5430d5420d5410d5400d53f0d53e0d53d0d53c0d53b0d53a0d5390d5380d5370d5360d5350d534,
  0x0d5630d5620d5610d5600d55f0d55e0d55d0d55c0d55b0d55a0d5590d5580d5570d5560d5550d5540d5530d5520d5510d5500d54f0d54e0d54d0d54c,
  0x0d57b0d57a0d5790d5780d5770d5760d5750d5740d5730d5720d5710d5700d56f0d56e0d56d0d56c0d56b0d56a0d5690d5680d5670d5660d5650d564,
  0x0d5930d5920d5910d5900d58f0d58e0d58d0d58c0d58b0d58a0d5890d5880d5870d5860d5850d5840d5830d5820d5810d5800d57f0d57e0d57d0d57c,
  0x0d5ab0d5aa0d5a90d5a80d5a70d5a60d5a50d5a40d5a30d5a20d5a10d5a00d59f0d59e0d59d0d59c0d59b0d59a0d5990d5980d5970d5960d5950d594,
  0x0d5c30d5c20d5c10d5c00d5bf0d5be0d5bd0d5bc0d5bb0d5ba0d5b90d5b80d5b70d5b60d5b50d5b40d5b30d5b20d5b10d5b00d5af0d5ae0d5ad0d5ac,
  0x0d5db0d5da0d5d90d5d80d5d70d5d60d5d50d5d40d5d30d5d20d5d10d5d00d5cf0d5ce0d5cd0d5cc0d5cb0d5ca0d5c90d5c80d5c70d5c60d5c50d5c4,
  0x0d5f30d5f20d5f10d5f00d5ef0d5ee0d5ed0d5ec0d5eb0d5ea0d5e90d5e80d5e70d5e60d5e50d5e40d5e30d5e20d5e10d5e00d5df0d5de0d5dd0d5dc,
  0x0d60b0d60a0d6090d6080d6070d6060d6050d6040d6030d6020d6010d6000d5ff0d5fe0d5fd0d5fc0d5fb0d5fa0d5f90d5f80d5f70d5f60d5f50d5f4,
  0x0d6230d6220d6210d6200d61f0d61e0d61d0d61c0d61b0d61a0d6190d6180d6170d6160d6150d6140d6130d6120d6110d6100d60f0d60e0d60d0d60c,
  0x0d63b0d63a0d6390d6380d6370d6360d6350d6340d6330d6320d6310d6300d62f0d62e0d62d0d62c0d62b0d62a0d6290d6280d6270d6260d6250d624,
  0x0d6530d6520d6510d6500d64f0d64e0d64d0d64c0d64b0d64a0d6490d6480d6470d6460d6450d6440d6430d6420d6410d6400d63f0d63e0d63d0d63c,
  0x0d66b0d66a0d6690d6680d6670d6660d6650d6640d6630d6620d6610d6600d65f0d65e0d65d0d65c0d65b0d65a0d6590d6580d6570d6560d6550d654,
  0x0d6830d6820d6810d6800d67f0d67e0d67d0d67c0d67b0d67a0d6790d6780d6770d6760d6750d6740d6730d6720d6710d6700d66f0d66e0d66d0d66c,
  0x0d69b0d69a0d6990d6980d6970d6960d6950d6940d6930d6920d6910d6900d68f0d68e0d68d0d68c0d68b0d68a0d6890d6880d6870d6860d6850d684,
  0x0d6b30d6b20d6b10d6b00d6af0d6ae0d6ad0d6ac0d6ab0d6aa0d6a90d6a80d6a70d6a60d6a50d6a40d6a30d6a20d6a10d6a00d69f0d69e0d69d0d69c,
  0x0d6cb0d6ca0d6c90d6c80d6c70d6c60d6c50d6c40d6c30d6c20d6c10d6c00d6bf0d6be0d6bd0d6bc0d6bb0d6ba0d6b90d6b80d6b70d6b60d6b50d6b4,
  0x0d6e30d6e20d6e10d6e00d6df0d6de0d6dd0d6dc0d6db0d6da0d6d90d6d80d6d70d6d60d6d50d6d40d6d30d6d20d6d10d6d00d6cf0d6ce0d6cd0d6cc,
  0x0d6fb0d6fa0d6f90d6f80d6f70d6f60d6f50d6f40d6f30d6f20d6f10d6f00d6ef0d6ee0d6ed0d6ec0d6eb0d6ea0d6e90d6e80d6e70d6e60d6e50d6e4,
  0x0d7130d7120d7110d7100d70f0d70e0d70d0d70c0d70b0d70a0d7090d7080d7070d7060d7050d7040d7030d7020d7010d7000d6ff0d6fe0d6fd0d6fc,
  0x0d72b0d72a0d7290d7280d7270d7260d7250d7240d7230d7220d7210d7200d71f0d71e0d71d0d71c0d71b0d71a0d7190d7180d7170d7160d7150d714,
  0x0d7430d7420d7410d7400d73f0d73e0d73d0d73c0d73b0d73a0d7390d7380d7370d7360d7350d7340d7330d7320d7310d7300d72f0d72e0d72d0d72c,
  0x0d75b0d75a0d7590d7580d7570d7560d7550d7540d7530d7520d7510d7500d74f0d74e0d74d0d74c0d74b0d74a0d7490d7480d7470d7460d7450d744,
  0x0d7730d7720d7710d7700d76f0d76e0d76d0d76c0d76b0d76a0d7690d7680d7670d7660d7650d7640d7630d7620d7610d7600d75f0d75e0d75d0d75c,
  0x0d78b0d78a0d7890d7880d7870d7860d7850d7840d7830d7820d7810d7800d77f0d77e0d77d0d77c0d77b0d77a0d7790d7780d7770d7760d7750d774,
  0x0d7a30d7a20d7a10d7a00d79f0d79e0d79d0d79c0d79b0d79a0d7990d7980d7970d7960d7950d7940d7930d7920d7910d7900d78f0d78e0d78d0d78c,
  0x0f9170f9160f9150f9140f9130f9120f9110f9100f90f0f90e0f90d0f90c0f90b0f90a0f9090f9080f9070f9060f9050f9040f9030f9020f9010f900,
  0x0f92f0f92e0f92d0f92c0f92b0f92a0f9290f9280f9270f9260f9250f9240f9230f9220f9210f9200f91f0f91e0f91d0f91c0f91b0f91a0f9190f918,
  0x0f9470f9460f9450f9440f9430f9420f9410f9400f93f0f93e0f93d0f93c0f93b0f93a0f9390f9380f9370f9360f9350f9340f9330f9320f9310f930,
  0x0f95f0f95e0f95d0f95c0f95b0f95a0f9590f9580f9570f9560f9550f9540f9530f9520f9510f9500f94f0f94e0f94d0f94c0f94b0f94a0f9490f948,
  0x0f9770f9760f9750f9740f9730f9720f9710f9700f96f0f96e0f96d0f96c0f96b0f96a0f9690f9680f9670f9660f9650f9640f9630f9620f9610f960,
  0x0f98f0f98e0f98d0f98c0f98b0f98a0f9890f9880f9870f9860f9850f9840f9830f9820f9810f9800f97f0f97e0f97d0f97c0f97b0f97a0f9790f978,
  0x0f9a70f9a60f9a50f9a40f9a30f9a20f9a10f9a00f99f0f99e0f99d0f99c0f99b0f99a0f9990f9980f9970f9960f9950f9940f9930f9920f9910f990,
  0x0f9bf0f9be0f9bd0f9bc0f9bb0f9ba0f9b90f9b80f9b70f9b60f9b50f9b40f9b30f9b20f9b10f9b00f9af0f9ae0f9ad0f9ac0f9ab0f9aa0f9a90f9a8,
  0x0f9d70f9d60f9d50f9d40f9d30f9d20f9d10f9d00f9cf0f9ce0f9cd0f9cc0f9cb0f9ca0f9c90f9c80f9c70f9c60f9c50f9c40f9c30f9c20f9c10f9c0,
  0x0f9ef0f9ee0f9ed0f9ec0f9eb0f9ea0f9e90f9e80f9e70f9e60f9e50f9e40f9e30f9e20f9e10f9e00f9df0f9de0f9dd0f9dc0f9db0f9da0f9d90f9d8,
  0x0fa070fa060fa050fa040fa030fa020fa010fa000f9ff0f9fe0f9fd0f9fc0f9fb0f9fa0f9f90f9f80f9f70f9f60f9f50f9f40f9f30f9f20f9f10f9f0,
  0x0ff140ff130ff120ff110ff100ff0f0ff0e0ff0d0ff0c0ff0b0ff0a0ff090ff080ff070ff060ff050ff040ff030ff020ff010fa0b0fa0a0fa090fa08,
  0x0ff2c0ff2b0ff2a0ff290ff280ff270ff260ff250ff240ff230ff220ff210ff200ff1f0ff1e0ff1d0ff1c0ff1b0ff1a0ff190ff180ff170ff160ff15,
  0x0ff440ff430ff420ff410ff400ff3f0ff3e0ff3d0ff3c0ff3b0ff3a0ff390ff380ff370ff360ff350ff340ff330ff320ff310ff300ff2f0ff2e0ff2d,
  0x0ff5c0ff5b0ff5a0ff590ff580ff570ff560ff550ff540ff530ff520ff510ff500ff4f0ff4e0ff4d0ff4c0ff4b0ff4a0ff490ff480ff470ff460ff45,
  0x0ffe60ffe50ffe30ffe20ffe10ffe00ff5e0ff5d]

/-- `index_pointer_euc_kr_0` (lib/whatwg/encoding/indexes_pointer.cpp:8), 17048 entries. -/
def ptr0EucKr : Table := ⟨20, 17048, ptr0EucKrData⟩

/-- Rows of `index_pointer_euc_kr_1`. -/
def ptr1EucKrData : Nat := pack 480 [
  0x183f1e121e101e1b1d5e1d5b183e1d531d5218ec1dab1da71daa1d5d1e6518e91823190f18e21e671e66183d1845192418281d541826185618f118eb,
  0x1b3a1b391b3818e618ea18e718e818e518ed18e41e1d1d5f1e1a1d5c1e1e1d601e1f1e181d5a1e171d591e161e151d571e141e131d551e111e1c1e19,
  0x1b601b5f1b5e1b5d1b5c1b5b1b5a1b591b581b4f1b4e1b4d1b4c1b4b1b4a1b491b481b471b461b451b441b431b421b411b401b3f1b3e1b3d1b3c1b3b,
  0x20582057205620552054205320522051204f204e204d204c204b204a20501b6f1b6e1b6d1b6c1b6b1b6a1b691b681b671b661b651b641b631b621b61,
  0x208620852084208320822081207f207e207d207c207b207a206a2069206820672066206520642063206220612060205f205e205d205c205b205a2059,
  0x18251824191119101830182f182e182d18292080209a2099209820972096209520942093209220912090208f208e208d208c208b208a208920882087,
  0x1b2b1b2a1b291b281b271daf1dae1dad1dac1da91da818491ccc191f1922191d1c9718f2184819231e6d1e6c1e6b1e6a1e691e6818571847184618f3,
  0x18e1185218e018df18de19141916191319151912186918681865186718661b211b201b1f1b1e1b1d1b1c1b1b1b1a1b191b181b301b2f1b2e1b2d1b2c,
  0x18781877186c186b18421841185418401855186e182c1870184418ee187218711879187a187c187b182a184f1843186f186d18ef18f0187418731853,
  0x1e5f1e5e1e5d1e5c1e5b1e5a1e591e581e571e561da61da51da41da31da21da11da01d9f1d9e1d9d1d9c1d9b1d9a1d991d981851185018fe18761875,
  0x1e541e531e521e511e501e4f1e4e1e4d1e4c1e4b1e4a1e491e481e471e461e451e441e431e421e411e401e3f1e3e1e3d1e3c1e641e631e621e611e60,
  0x1bd71be11bd61d971d961d951d941d931d921d911d901d8f1d8e1d8d1d8c1d8b1d8a1d891d881d871d861d851d841d831d821d811d801d7f1d7e1e55,
  0x1bee1c031c021bf31bde1be71c011c001bec1bff1bfe1bf11bdc1be51bf81bf91bda1be61bfa1bfb1bdb1be41bf61bf71bd91be31bfc1bfd1bd81be2,
  0x1c151c141c131c121bf51c111c101bf01c0f1c0e1be01bea1c0d1c0c1bf41bef1c0b1c0a1bdf1be81c091c081bf21bed1c071c061bdd1be91c051c04,
  0x1901185b185c185a18ff185d185e18f418f51863186418f618f7186118621909190619071908190519041900185f186019031beb1c191c181c171c16,
  0x18381837183618351834183318271822182118201917191a19191918190a18fc18fb18f818fd18fa18f9184d184e190e190d190b190c185818591902,
  0x1ee41ee31ee21ee11ee01edf1ede1edd1edc1edb1eda1ed91ed81ed71ed61ed51ed41ed31ed21ed11ed01ecf1ece18321831186a183c183b183a1839,
  0x1f021f011f001eff1efe1efd1efc1efb1efa1ef91ef81ef71ef61ef51ef41ef31ef21ef11ef01eef1eee1eed1eec1eeb1eea1ee91ee81ee71ee61ee5,
  0x1f201f1f1f1e1f1d1f1c1f1b1f1a1f191f181f171f161f151f141f131f121f111f101f0f1f0e1f0d1f0c1f0b1f0a1f091f081f071f061f051f041f03,
  0x1fa91fa81fa71fa61fa51fa41fa31fa21fa11fa01f9f1f9e1f9d1f9c1f9b1f9a1f991f981f971f961f951f941f931f921f911f901f8f1f8e1f8d1f8c,
  0x1fc71fc61fc51fc41fc31fc21fc11fc01fbf1fbe1fbd1fbc1fbb1fba1fb91fb81fb71fb61fb51fb41fb31fb21fb11fb01faf1fae1fad1fac1fab1faa,
  0x1a5d1a5c1a5b1a5a1fe11fe01fdf1fde1fdd1fdc1fdb1fda1fd91fd81fd71fd61fd51fd41fd31fd21fd11fd01fcf1fce1fcd1fcc1fcb1fca1fc91fc8,
  0x1a7b1a7a1a791a781a771a761a751a741a731a721a711a701a6f1a6e1a6d1a6c1a6b1a6a1a691a681a671a661a651a641a631a621a611a601a5f1a5e,
  0x1a991a981a971a961a951a941a931a921a911a901a8f1a8e1a8d1a8c1a8b1a8a1a891a881a871a861a851a841a831a821a811a801a7f1a7e1a7d1a7c,
  0x1ab71ab61ab51ab41ab31ab21ab11ab01aaf1aae1aad1aac1aab1aaa1aa91aa81aa71aa61aa51aa41aa31aa21aa11aa01a9f1a9e1a9d1a9c1a9b1a9a,
  0x1d62191c1e3b1e3a1e391e381e371e361e351e341e331e321e311e301e2f1e2e1e2d1e2c1e2b1e2a1e291e281e271e261e251e241e231e221e211e20,
  0x1cbd1cbc191b1d7d1d7c1d7b1d7a1d791d781d771d761d751d741d731d721d711d701d6f1d6e1d6d1d6c1d6b1d6a1d691d681d671d661d651d641d63,
  0x1ca71ca61ca51ca41ca31ca21ca11ca01c9f1c9e1c981c961c951c941ccb1cca1cc91cc81cc71cab1caa1ca91cd11cd01ccf1cae1cad1cc01cbf1cbe,
  0x1ccd1cc61cc51cc41cc31cc21cc11cbb1cba1cb91cb81cb71cb61cb51cb41cb31cb21cd61cd51cd41cdb1cda1cd91cd81cb11cb01c9d1c9c1c9b1c9a,
  0x44e7550156bb443d598a4641463550c241035767522e50121cdc1ce11cd719211cd21cde1cdd1cac1ca81ce01caf191e1ce21cd31c991cdf19201cce,
  0x3fca3ec637964630442c4e8e3e2536ce4a9c37a239df4f4b492639b759885b05458453dc39de3c894c44538a3d3c5bb8392153c8492543f939dd47a5,
  0x376a3b3239e057464ffb49e04ffa3d3d3eec523038315a4a5a884b675a3139c459c0411d49e545863b47522f4c5c5b064de54e544dbc4fcc45854aef,
  0x495a3f8b42ae43625c934374441a3b4c4c5d3b404fce59c13b4b501b376b379753c94a1f4fcd3f8a3d7655ce3e2746fa443e50c357774587508f508b,
  0x574b3ee5548636b6495b458a501451923bec368f43634ab158b650a944dd50134af0598b4dbd5384538b515d4e7558e0515c3d3e5191368e45894588,
  0x47f2495c5a7c458b440a406947d35a6238324da452dc53b44c5e49e6568c385e58c63ef9576a5c6c41c14f593911550240554e8f538c492f3f9c39a7,
  0x4a9d4d0f578540564c45378553133a89574c433255365503383355bf4f5a5c6d5a453d894209434e376c55353eed43fa4ae6442d5902434f39e1443f,
  0x464346fb55eb3b2238344642554b51934c5f4da556a144e8462437a34333444039b858314dbe5232574537985231538d5a3258c74e76381036904ade,
  0x52dd56cd5a894e574f2e4ce54ae73bf23efa515e4dbf3fc246444e9037a638354ad953b54f5b458c43833691552b49274d1a4e773fcb5cb1441b39c5,
  0x41c2514755574aee3b4e382b519539e23b4d43fb39135afc4052391258b34e913eee51943c8b50263b483e3849e758204144580d3b1b39a846fc5c9b,
  0x521a44c94ffc3d8a59ad56ca4d1b55e15c9c376d5bce43785cb24f5540623e29406352de3eef53b655bb3f7e3ee94a9e3e28414241b139934da64145,
  0x508c4727429b3752444155c151963ece3b1c45c05763560836ab509055263a8a47eb52c53d8b39a34625406a43f5584a56113f7f5a8a420a36b74c47,
  0x3e2a4060383741464da7576442c738365a43380d3c9a52df3b233f80369239143f0b37a852c637a7404443843b1d5bfa56125903553759ab44425197,
  0x44ea374c39a950c4493044c85b4444e9441c58e358e25c9d58e1427539e33b1350aa3a8b3efb5c7a3b24517847a641c33fa149285c7941f136d84ddc,
  0x53cc3a8c3ec736ac4e784ffd41e5471a39b4522243ef441d429c3c145a7d5786531044eb410442af5c884c604929502755cf49e13a443cd8597e5be6,
  0x47ae3b0453dd38d73a4638d63a4556964c4842b147f35737488f42b04dc13b4155044dc0552c37864ba9598c3a9357474e585c6e406b4a264a313838,
  0x5c70420b57385cac4c6259ae44ca444358d64f4c40833a795a4b5821406c5c6f41b23e2b51793bed59b936ad5ca5458e4dc2458d5487580e369358b4,
  0x514859ba5b3a59704a274fff59af5a3339c6543e5091577844443a475b4558e4515f41b35b07495d3694427838d95390539157f538d852333efc4c61,
  0x5c713e5355e346fd377e52c759b049e83d55385f420c4645578757794a1355384e9341163d6b406d5463458f58b758e555e25bff38fd561336954e59,
  0x4931573952e047af46473a48369657f6539247f4574d459055053b4f4c63546446635c723d3f39c73bf146464e945c8436cf5cb35bb95c8955d059b1,
  0x58223d403d8c4e5a4e5b4e793a733a8d4acf58e638da3f8c390450005be7459147f5568d5cb53c8250ab4ae85a4c45724b745c0044cb5cb43b505a53,
  0x53b74da84a284e5c3a4a4f445a345a8b3d7747f657883a4938393d7858d157f73905583a3780538536d93d5643343b14584b54403b51543f3b055149,
  0x4c1e39b938603d8d50c5440c4adf4d1c36da4b7552c8440b55f549f74f273753582b381a3d6c3a7f3b533b5243515498494b554c44454b6947334129,
  0x4ce6438536b850c64c6544cc577a3e1b42075a5453d156a441e64da9466d383a48905199552d54655c7b4c645198466056973d6d3d8e580547b0376e,
  0x4d1d4446580f55d13d7941e24a9f3cda48914d1346eb3b54598d47f7466e5b09501550c7501c45924ab43fbb39ba39aa40375b084a1b59985c7c3d41,
  0x44ec4af45b0a36b93c9c3c9044ce46ec50c84f2f57ff4c664593519a5a3558325a5e44cd38615bba53933b06442e3c8c3b554ae95a7e4fd149724a20,
  0x4b7659c25cb654884fd236ba538e37544d1f501e4e7a473438db51604932509241c4523455f655bc412a58334335577b41e73b334d1e3b56501d411e,
  0x517a5a7b54894e5e47f8369749334e5d4279412b444744ed5b314cf7583b40385539573a410549e9495e4b773bf54c673c8345944d104e7b50935001,
  0x4ae44e95599944a950b6489247dc5a3638dc3862413c5c01509644a8530e5095508d39155a7750944ab54648457358d739c846fe5cb75b463cc959c3,
  0x4daa495f369847b14b785a37514a3a8347355bbb4e96497346ff377f4f5c4cf952355394399453145bfc5808441e39c04cf847e34a0547f94dc33d86,
  0x440d569853b83fcc399545954976554e3c9849744d204c68576b3922552740fd3c99494c4dc4599d412c44aa3a4b429850023b574e5f517b554d4893,
  0x4cda3a80386337873a743cc0427a3cd638dd55c24f304934573b43364dc5464955ec47b347b23d8f3d7a4977530f4e7c519b50c94597442f45965692,
  0x49ea464a574e47fb52233f8e4a06428b5b0b49f83d7b374d47fa4a14375550bb3b585ca646263e4347d4406e574a40393d9043fc519c471b49354936,
  0x3f8f4c214aec4d2339c93e4a3d923a4c55064d14491c3ed036db427b44e148bb405737564a2956a239063b593ee648ba5a7f53b93d915a6344314430,
  0x4364548a55f758095cb8437958e74937379947dd59c4583c45984fd43b5a550741f2378839ca5386391647b4489b539555d24a1541064d1549f9466f,
  0x50cb3b5b4e984e975bbc36bc5a4643fd3c9158d236bb58d83d6e436a574f40fe5bcf433758fc49fa52365c7341c5464b3d7c50ca46ed459947fc52c9,
  0x39ab58d9553a41e8519d53963fcd398e3a4d3edd3f84598e464e4e994dab375746714a16523738de53873d93464d44ab383b522451614670464c44ee,
  0x3d424107427c375957f8597f375850cc4aa73c9d5b0c5a6452ca4fd55b3b44de500352e13a844938494d58da3fbc43f05be8379a52384b7a55ff3efd,
  0x459a43523e493d94383c46725c74405b5be9489c3d7d52394d0a44df59774b6a43384c22553b58c1457452e25904554f4ddd4ae05aec4fd65c8b5afd,
  0x5810459b3f9058e83c9e4a2144cf5b373c94577656ce4120411f5441569350043b5c598049785c8c55e43d8754fe427d489d441f5bd04ad03ee75315,
  0x599f52cb49754ba25cad494e39183c9536ae4f45599e57505c9850975bea39a44ab6467359c539175bd14939489e501f380e39bb4e6047363b424fd7,
  0x4aa05bd2464f3cba577c49fb5afe4e9b46ee5b385b2e3e1c523a55bd3d953864428c56d33d8844ef5316406f56995bbd4e9a4c69519e47e458b85beb,
  0x552e41c659055bd45811382c50984f46405c4dac4e6137704960376f553c5bd339bc36dc4a2a4dc649fc4f5d58c5428d4e9d4e9c379b47fd57484737,
  0x383e428e38113e2c44d057f95cb95cba561445803f1253d244f04dc7569a4d9e55c3375a383d4e7d3efe531737715aff36af3996410858245837552f,
  0x5b2f386549eb47384f3f485e48b641f539233d6f3f134f5e3a4e55305a655bec3e5454ff3bf641f44c6b4f565a3836bd3b2536dd3d574ada5a5741f3,
  0x583d382556153b5d492a4a3244f244ad3b4344d1578a577d514b485f44f15b0e470058c847b543393eff5b0d3d7e5cbb519f4053521b36de3b1e55c4,
  0x39a54353561653113a4f4d24577e42c855c5378939bd3bf8429d42b23eda3c9641f644e056a54a1c4117516258ea597858e9521c59c6583446744adb,
  0x3c973c1355f83a8f378a459c443258eb4b7d3c1258b555105a8041094b7e523b546653883d964a07544354423bf9492138df3a8e391953d43bee494f,
  0x4aa14e625c8d381249fd5bbe4ab74f5252cc41e93b074e9e36be52e34aea56a6391a522b580155503eea39b53a814a33435450cd3d97486047b64675,
  0x56a0583e41f742c955e53d703c924d264631581e3fa3522c41c841c7544440f5569b517c55115c94580642b3546748613d984d2547b7429e47de463d,
  0x39cb3f14472f4ab8581f42b44d27583f5bb355c64f5f378c55283ed1578c3d7f378b43863d583b34383f52e43813581c55d33fa44ce73d50429f5517,
  0x4701486344ae517d523d38e24ab938403e1d462736df553d58b94c6c3a50428f39cc46765c0238e1523c433a391b37724e9f38e0486254453ed25bb4,
  0x4045530a523e47023f00433c493a4ad1433b3d434961459e553150ac44af55c73b264a0f5495459d38fe3fce3e3942b544f34575420d5c0358db3f85,
  0x473943fe5ca146ef4b6b3b3544d25b3241b4553e5b0f433d492b39074c6d3e1e429142904d0b4dc859a04dde489f52e554463d4450163b5f41f83b5e,
  0x410a49625b105bed5bc04c6e473a5cbc53975a6653ba4a08546954685bd65bd5493c52e64a2243ff553f41ea4ddf598f493b47b850ad412d56c74c24,
  0x3e1f3842472858fd5b0050ce41c950bc554038e341b54aba4a173c0b46774e7e4c255c8e5c8236995c85544752403a9f523f560046f03841440e578d,
  0x3ede549645c2442044e24ea04e725bee56a3560953d3410b52e752e8467936d038434c4938ff4d095cbd39ac58fe4d2946784a2b5c043d593f0c4c18,
  0x435559c747d53bc23e3a50cf59065694514c5a474070463736bf5c753a98577f42a0539856cb5529442b4118427e41d93fbd41e33bc13bc052e94121,
  0x36e041ca43654400493d3a51369b369a544958d338e454483924412e408c576c3e3b46f13c16433e4d0c44f4584c47e53ccb5840516341eb3e2d37a4,
  0x59c837a5514d38143b275a444de0539a436639cd405d467a51a048a0524145a0459f5558493e404653993c8d369c36c03a52578e4ea34ea24bad5768,
  0x427f437a47b93908386752cd45a140714c6f56174cfa5c0552ea38445751514e3900412f3ef036c15825546a3bef5bc146503e2e548b4a093d993866,
  0x471c59724abc56c84b804aa241b6567856a749504f604cfb39973dfa467b463838c850b73d713e2f44e33b1f52eb5318443339093bc3414744013bc4,
  0x582c3a5342b638e5580740474c2744f55bd7433f546b4dad4c2656a85a393b2048a151644aed53ce524242804ea64ea53c174064567941f9379c5780,
  0x3bc53e4b3b1a48a24de739ce4d2b36e153bb5b47486442a1567a4abd41cb50d056a959075165403a3ef1436b49fe3b2852ec3b083773398f39be5541,
  0x3bc64d9f5ca255085ca93ed33ec950d23a903ec84a985a5853cd3f013fa53a993dfb59b2457650d137a95bef43873b364adc524338153d455bfd4651,
  0x45773f864de850b84951486548a35812546c4a2341e045a23aa03f0d47a74d1141fa440f55095244544a5bbf4b573a5457fa369d5a5b5cab39985caa,
  0x437b4c28458148663bc7413d429249e451a23a565b1141cd44f944f844f744f64f293e11413041cc41fb3a554f615c8a51a136b046324f473d464729,
  0x41da3e20576d4b8159c94e634cdb3bc9497944d33bc83826426e3b4458134c4a4d0d390e544b375b5b3c4b584c7059a1462846f2437c3a5753cf5245,
  0x584158ed437d45a443815b3d598142a255d4471d5aed5bd84b8255ed38e647ba57524ea744fa59905166411958ba544c45a356cf427641483d6641e1,
  0x53bc521d404858425cae5bc94e6439ad5c9e48a4539c5b3e471e4ea8546d3e303ebd486747a844103f814abe4c295814429342b75a67539b3cd74f53,
  0x5c0746f357533a91524659b34a344a2c560a4b8447d64b835c064dae473047bb38454ba358bb5a81576e5a3a4da044b040723edf5b1258ee4cfc4578,
  0x42ca45a53dfd378d524836e251675bc2463955ee55d54aeb56015b334b8548a549db5bf04f4d405852473d5a47e6403b53193dfc48945b13408d3bca,
  0x3c184e65580a500556aa4daf5bd9524949523d5b46525b143d47539d428243565b34514f428141ec4eaa4c2a36d1470359ca4e7f5749471f4cef49ff,
  0x4ad2410c390a5b15517e560b3dfe51505bca5aee55c850995bda414f554243403cd94db0546e47bc4cdf38c944b1501741b73a58404953bd4e664411,
  0x50b93a9a52ee3d5c4f335bdb46f43fa650bd489542b85499382742cb4c2b50d3522555434868544d410d3f1559a240ff52ed4b863774403c57695908,
  0x4f0c5b1752ce4c2c49204c4b3cb53f87578f38163d513d5d4c7151a355185bf13f9d581d59a336c25b164de958c2539e55e65500463e408444123e31,
  0x5af039993eca4ff44c2e3fc33fbe5a3b47bd524a3f0e4f404c2d59a43fa7457a58ff404a49dc45a63e125aef4abf3f024579579053be3ed45b183dff,
  0x5b3f4cd25c953f82522650af539f44025af157fc378e5a6847be524b39ae509a5ca3567b4baf573c3846515150ae3a595bf25b48410e5b1957fb47ed,
  0x52ef5c765bc3413146334de14b8a3c0d4c2f52045bdc5c863f765c8f4b894bb0567c41fc3e2144d4435753bf4ae15c7d443458c338474b8853d53ebe,
  0x551952f04c304b8d436d47bf40853fcf3e223e4c4b8c4c1a57545cc05cbf4ba54cd3443548965cbe4db15af25c7e4e554dea49534704509b4ac0436c,
  0x49ec3e1355f958bc584d58c950d446544fdc46535c684aa344b250b04e804e675158584352f13ecb3fa859005a5f4d2d3e0049635c7f4731568e4869,
  0x4c4c58bd3ee05a824074486a39cf51683a5a5b1a4a1d517f39af4655437e381c5cc13e144073467c381b58384668427741db3fc441cf41ce457b4dc9,
  0x4d0e4cdd47e2509c5a695a593d52486b3f895bfb4c315bf33e153a944cd450d645a74cdc4e685bcb4f0e4f0d41ed5169473b4d165312493f413e5544,
  0x3b095af35a4d4fdd441348a653a03ebf5c77391c39b036b1546f598246294295369e42a35a6a3d803f91457c4cfd4f3442943bcb4dca3a5b55d6524c,
  0x5792584444fc3b37408e4bb1399a531a4cff44363bcd390b3bcc5b1b579148975205576f4cfe404b486c40753ee13a5c47055a6b524d473c41fd42b9,
  0x408650d73f77470740763bce3b293ee240f65af454704ce04d2e4db2404c491d467d4f104c335b1c3ca24e6959914e81470656c941d04dcb5b354382,
  0x381d4403509d4ce84cf0584e59095b1d3925551b399b4c353fbf384a548c4708466148984b5a486d5bc452f2551a438838493bcf5471384842a45bdd,
  0x598341fe56bc5472404d42ba3d6752084d1738ca3b15524e52073c1a4964374e4f1152064db444144db347c0466a462a466955ef49dd36e34ce953d6,
  0x369f548d516a3e3254733d53509e36e4597958ef4b6e3775462b4f6247c147c2598455fa53a1375d3bd1375c3bd03d725b494fdf53c0436e5c963eeb,
  0x43894f1336c34a183fd0403d486e404e42bb554555c94ce147c34ac24ad338e744fd575640f73d5e40785827384b3e3c5ca457554ac14fe053d74404,
  0x50ba3e01473d377759bb4ff54c3644d543584dcc41b856ab597a5b1e38e839d05bde3776518143684367432c3e4d38cb52094cea47093e56521e5757,
  0x55fb41dd3e16486f524f5a6d55124a0a52f341d13a925a6c414a547536c4428358024149473e48a742bd4656545e413f41dc3fa942bc36e554744140,
  0x57705551544f44fe45a846f539d14d123d483a5e544e4f6349403b4941d2568f3a5d380a55f03e3336e63fd148a843f6410f41b954764c4d38e93e02,
  0x40f942be38cc550a3fc54341509f40f85bb65bb546f643ea36d24d0044ff47ee4a2d3fb352503bd244e44b90384c404f567d4b8f3b0a584558f04091,
  0x3bd752cf590a465745ab496556bd5b1f378f52f5545152f44dcd54503bd63bd53bd445aa45a9494142c03f0f3f034b5b567f567e42bf36c53bd3384d,
  0x548e4a245477577452f6450145005680398656ac3c93440545ac48703e175bab3b394dcf4ac33e033f9e470a5cc24ad44dce442152515baa3b383fb4,
  0x4ce24c4e466548714c375182575941de390138ea38cd36a03e0454604de25775531b52f7597140655758545f58be50225681525236c647a95cc34fe2,
  0x384e4406553241ee40f2521f3e3d3b0c551c3b0b4d913a864cf24cf13a823a7a52f85546548f4d9055133e2655d75253391d3a853a5f5a784ac45bb7,
  0x3d68582856bf39b1437548a9520a3b2a3e4e598547aa3f9252d044b340f358155183466c47c45b3936c756be53b2384f3d4936d348723e3453c150d8,
  0x530b45ad3e1847c5495456c058ca520d437f5bdf5220516b50be4658520c399c382d550b462c3bd842a55159520b37784cd54b92467e473f3b165559,
  0x48733782551f3ef33ef250d953b347d7522752f942a640f444d645024284407955f23fc0518453a23ed544b43f8855f147c650bf5be036c83d4a551d,
  0x50a04666434247c744d83b45545239c145ae48aa3ccc3c7e4270426f5bc55ca74dd05b404aaa53a33bd93b0d38ce3ef4375e52fa44d73d735b205254,
  0x3851487452553a60381e5221375f45af5829467f50084f413b465a6f3ec039d2382842c1385052fb5a6e531c36e747c8516c496647ab403e552a53a4,
  0x4e82414c4d0158cb4b934296560c3d4b549a470b59b4468045033beb575a414b406650b157fd3bda4059555255e7412237604f16487553a53fb5531d,
  0x38cf5bf4492c48764d93470c546153d84d9241ff44e543705185569c403f531e4b9556c144375a7051524da15b21547942a74ce34a355478575b3f78,
  0x4ac63bdb3e57407a5846413246814376575c39b6538959a54123399d4a99382959cb44b53ed63e195520472a4c38520e47d8551e38d04b6f52fc381f,
  0x3faa4d944ff839d359a64d0258cc4504573d51865caf465949223f944ff74ff649424ceb4dd13783407b5cc44f64470d3a7b48773f9338eb42853761,
  0x4fe64f3e3fc1560254624db547a1569d3f794271573e458247a03fd23f953d5f385358034aa44fe53bdd4deb41d338523c8e4fe43a613bdc50a138ec,
  0x39b246e24f355b2258f1374f435a58164359538f4e8358dc5c694f2b39c23b4a434338204505545338ed36c959cc56823bde40614f2a52fd45b04899,
  0x50da379d4d95531f3cbd47a24d04376244b744b649674a364566554758f25800487848ab385436b24d0355ca41375a84573f5a8354543cd35c9f3e35,
  0x50a2408f50dc4cf3496850db3edb52d14add45673e443cb85bf53d604f5756d4470f58c4549039d4491e410044b838ee42a838174344582d470e4422,
  0x554852564b5e44b947105a7142a9578142c2434559cd376353a6420048ac55d846e345b147203a645cb04b5d3a634f173a62547a3d81575d54555740,
  0x56ad3b2b4dec545743465bac49de4c4f584744d93b3a5b233779463a54563e4544ba41243a8750b24dd24a2e56834bb2466736cb3ef536ca59b54f65,
  0x5bf648794423412550a341ba411a41d536a24380420153c7598638f04c3b516d38ef4aab4fe73a6558f336a141ef568458174bb34e6a508e49ed41d4,
  0x3b173a753fb6399e56034126410149ee44bb5a854d054969385545b250dd407c518759923e3e5be14fe850245af556855a4848ad4b5f4db63cdb5009,
  0x5b244e853e3658f436d4516f4c1b3ec14f185c87411056ae4e8458d441413ee83e0556d5489a516e4a194568406738f15bad3b2c4415555355493987,
  0x4424411141b03fd348ae3f7a4438487b45b34944377a4db746f756c241bb47df5b25554a4aad53d958f54347462d41e44943487a53d03b0e4aac50de,
  0x55d9472150e037644f66428642aa47ca4202580c3a9548af5b014ded39d5568643713d614e8658dd547b4f4e47c9569e50df555440404e52463b50a4,
  0x3ecc471143eb4ae54ce447cb3fab4c51399052fe40875170487c43724aae3e4f4c503f044dd350e1496b3ed750a538f252d25c8046e4496a46345c83,
  0x4cd6496c4439569049ef549159bc39d653a74cf45bf73d4c45b4575e52ff391e500b434842725b415c975b274dd43fac5a5555be379e599a5b263eb8,
  0x3f0553c23edc492d472b4f675a3c56d04d97471242c357733eb93d745af641bc4f423ee34cf5522d5b28491f59934e875be2495536d6429945695458,
  0x487d3d4d58f63d8236a441c04e6b3b3c3b3b56d23c8147f0463c590b4f683a665af756d14e8849f036a348b75a724b975a4953ca5a79411250c038f3,
  0x40414923582e4da2435d4e89441758f736d5442552d33eba435c435b465a456a407e45b550e244163a7c4f194c53407d3f83515338f4597b390c547c,
  0x44bc52574ae25691465b5a3d36b4399f3ed936b33b2d57663e063818494541433b0f382158bf44263d624d9846e54924411b3ed83b3d4ac837654722,
  0x494749464c5448b04c3c45b7517158d5530045b653a8547d36a547cc5a56472343493cca382a47e749f14cf63bdf57935ca85c8158235b42496d38d1,
  0x53014f484f69456b3989487e47245bf847e838f54cd7420338d247a34ad54f1a57fe46e6500c5459398853a955f34713465c5a3e5bae5cc5520f3a9b,
  0x599b429a42873e504e8a4a1041d63c064ae352d4597349df5c9050a64f1c36cc52585a3f560d494855fc4f1b3fba3ef656af515a56043d6348b155f4,
  0x5533487f43f13e1a4c555b2938224fca4b70456c385644183d6449563be05c9953da5baf3b2e3a674050518841d74d9945b837664ff9382e434a47d9,
  0x39a05804584f5bb0457d391f515444bd525958c041d841385687494a590c4c565b2a465d3e2349494d0659743be13e405bcc38d33902552155344aca,
  0x44be55da41345a74435e465e45b93fc7457e547e518936a650a75bf950253fc644da599442044feb55fd456d3d83413358d03aa14fec47ad517255ba,
  0x5818545c44c1530c56b0574153024e7356883be244c03b1053aa5a6045ba518a47da50e3472c552253db4f365736545b46623a6844bf3fc83e075492,
  0x517353033a9656c455cb518c56c35b02550d3e09379f52d54f1e53814f1d5380379155db3d694db83e083fad398a4714518b3790584836a75493432d,
  0x44073f7b55e841275c91575f3ef738574419411355fe51553fae39d7495736a856c5547f4b985a5a3a7d3a9c4a11550e3a693a88496e40884aaf53ab,
  0x4c3d49714dd53cb94da3548043f345bb43f258503ecf38f7496f3f1039c34b6139d855e952114e6c59ac4b60521044284427488053ac549b405a435f,
  0x3f9646e7582a51743e4138583e0b3a6a56c6583547cd58f85af84b725c783e0a39a647e9582f56b1518e4288380f48b8549442ab518d36a942c43b2f,
  0x47ce4e6d560f3d6a47e04d9a4e8b3d543e0c5be35995398b58cd4e4e4f1f4dd648813e464f20598950183b11548153ad560e3f7c443a53c3530447db,
  0x45bc5695434b3c005af941284cec4f543ebb43f441024fed5bc648825a4041354d9c597c379340344f21471555dc53c4545d3e47550f5305518f3823,
  0x3ec341bd568953af53ae436050b356b3525b4f223d4e525a3e51456e5a4e56b24a003e0d4dd7399144c23a7e3ee439d94de3517547cf3a6b581936e8,
  0x44c3525c47f13bf040803ef84aa653cb407f46f84f2355554acb37843f9f432e5b03568b50e44fcb56b447a452d6568a574248b2462e5b305c6a4883,
  0x4884521347163e37569f4f49525d48b93a6c432f4e744b9c382f5a753794375052124cde3f973b184f38463f5851380b3e4855564dd855dd53065771,
  0x3f7d4c3f551438f846f941f03b3f3be452143be3525f3d6548b3515b56b656b53fb73767379558f946e8443b5a86525e488547d03a6d4c5859b641be,
  0x53b057f455ea5215471753835bfe54fc404238594dba5190530d501954825b2b377c5afa56b747ef4db938305382577237a04f243d4f4a013e0e398c,
  0x39a158393a9759be5bcd4a1a4a124c154ba83f063b12437759bd36b53751429736cd59a859a74f39377d58de472d427350e55515552339b336ea36e9,
  0x59b73e0f406854844f4f436152d754834e6f55cc492e472e59bf58df59a937684139404344c5597d578249f25307434c4d0758b255df44c443ec55de,
  0x50a853c5576038f954fd49f34e564a0b50b455cd3fa04f4a5a5c488848874089514652d83b214a2f4e4f381938d45be448863d84405f4dd94acc4054,
  0x462f42055996465f4c4140904c5a522854855260488a521642ac3fc93f984e5044db427447254ddb4dda3c10408150c156b849e34889530851764ced,
  0x47d14f503e1059aa4e8c55e058ce3a7736d73a7639204a0c5b04411c500f5bb1500e5a61414d4289456f52c2526156053f994a303f1152d943ed3faf,
  0x405152174e704a0d4a024a3752da398d457f5830385b5a873e423f9a58493e2442c54d084c5b47ea4de4488b48b45a30385a52c35a7a5b2c5a4f4e51,
  0x440852194b6349f455244ff14ace5a5039da495958fa45bd4ff042c64f5157653be547e1495843734570590d590e581a464059755a76521838fa5b2d,
  0x45be578444c636aa3a6e3ca953b142ad501a48b55761578359764ad640fa5afb442959875a52488c5a514cee4d9d3be6471855253a9d3b30411439a2,
  0x38fb5610488d5a4239103f085bc73be93f0757434b73385c5a5d39db5c6b3a6f590f413a47d256b93e5237a158cf3be83be74409458353c63ec45a41,
  0x5bc85997442a4a0356ba385d390d56064082471939dc4a0e58fb52293fb04ad740fb4e8d4136436943315b3639bf3b024e5358364035488e43304c16,
  0x4f585c9a57443a7138d5599c4a9a41df50b544e64206390349f638245b434a1e4a254e7149f54b9e41bf443c3a7044c75309408a43f7376941154cd8,
  0x43f84cd9428a3d75522a56cc3d854208380c5ca03f0a46e95be55c9240fc414e3a78413b408b45bf3f093fb93bea3fb84c1759b83fb23ecd4a9b3fb1,
  0x0004234823472346234500030002234400010000234323423a7236eb434d40364a044ad8551647263f9b517757625157515652db457146ea38fc52c4,
  0x0013001200110010000f2357000e000d000c2356000b000a2355235423532352235100092350234f234e234d234c234b234a23490008000700060005,
  0x002e002d002c002b002a002900282360002700260025235f00240023235e235d002200210020001900180017235c235b235a00162359235800150014,
  0x004d004c004b004a0049004800470046004523650044004300422364004100400039236300380037003600350034003323620032236100310030002f,
  0x236e0062236d236c00610060005f005e005d236b005c236a2369005b005a2368005900582367236600570056005500540053005200510050004f004e,
  0x237c237b237a00722379237800710070006f006e006d006c006b2377006a00690068237600670066006523752374237323720064006323712370236f,
  0x00850084238723862385008323842383008200810080007f007e007d007c23822381007b007a23800079237f237e237d007800770076007500740073,
  0x009d009c009b009a00990098238d0097238c0096009500940093009200910090008f238b008e008d008c238a008b008a008923890088008723880086,
  0x00ae00ad00ac00ab00aa239a239900a9239800a823972396239500a700a6239400a5239300a42392239100a300a2239000a100a0238f238e009f009e,
  0x00c2240400c100c000bf00be00bd00bc240300bb240200ba2401240000b900b800b700b600b5239f00b4239e00b300b200b1239d00b000af239c239b,
  0x00df00de240b240a00d700d600d500d400d300d22409240800d100d0240700cf00ce00cd00cc00cb00ca00c900c8240600c700c600c5240500c400c3,
  0x00f5241300f400f300f2241200f100f000ef00ee00ed00ec241100eb241000ea240f240e00e900e800e700e600e500e400e3240d00e200e100e0240c,
  0x241a0112011124190110010f24182417010e010d010c010b010a01090108010724160106241501050104010301020101010000ff00fe241400f700f6,
  0x012324270122012101202426011f011e24252424011d011c011b011a0119242324220118242101172420241f241e0116011501140113241d241c241b,
  0x013e013d013c013b013a013901380137013601350134242a0133013201310130012f012e24292428012d012c012b012a012901280127012601250124,
  0x01570156015501540153242f015201510150242e014f014e242d242c014d014c014b014a0149014801470146242b014501440143014201410140013f,
  0x016f016e016d016c016b016a0169243501680167016624340165016401632433016201610160015f015e015d015c015b2432015a2431243001590158,
  0x243d243c018501840183018201810180243b243a2439017f017e2438017d017c24372436017b017a0179017801770176017501740173017201710170,
  0x01a601a501a401a301a201a101a0019f019e019d019c019501940193019201910190018f018e2440018d018c018b018a01890188243f0187243e0186,
  0x244a01c0244901bf2448244701be01bd01bc01b501b4244601b32445244401b201b1244301b001af2442244101ae01ad01ac01ab01aa01a901a801a7,
  0x01d101d024572456245501cf2454245301ce01cd01cc01cb01ca245201c9245101c801c701c6245001c5244f244e244d01c4244c01c301c201c1244b,
  0x01e501e401e301e224c124c024bf01e124be245d01e001df01de01dd01dc01db01da245c01d901d801d7245b01d601d5245a245901d401d3245801d2,
  0x020001ff01fe01fd01fc01fb01fa01f901f801f701f601f501f401f301f201f101f001ef01ee24c401ed01ec01eb01ea01e901e824c324c201e701e6,
  0x24c624c5021c021b021a0219021802170216021502140213021202110210020f020e020d020c020b020a020902080207020602050204020302020201,
  0x0230022f24d024cf022e022d022c022b022a022924ce24cd24cc022824cb24ca022702260225022402230222022124c90220021f021e24c8021d24c7,
  0x024824d602470246024524d502440243024202410240023f24d4023e24d3023d023c24d2023b023a02390238023702360235023402330232023124d1,
  0x026702660265026402630262026124db0260025f24da025e025d025c025b24d924d8025a0253025202510250024f024e024d024c024b24d7024a0249,
  0x028624e0028524df028424de0283028224dd24dc02810280027f027e027d027c027b027a0273027202710270026f026e026d026c026b026a02690268,
  0x029b029a029924e902980297029602950294029324e824e7029202910290028f24e624e524e4028e24e3028d24e224e1028c028b028a028902880287,
  0x02b502b402b302b202b102b002af02ae02ad02ac02ab02aa24ed24ec02a902a802a702a602a502a424eb24ea02a302a202a102a0029f029e029d029c,
  0x02cf02ce02cd02cc02cb02ca02c924f102c802c702c624f002c502c402c324ef02c202c102c002bf02be02bd24ee02bc02bb02ba02b902b802b702b6,
  0x02e902e802e702e602e502e402e302e202e102e002df02de02dd02dc02db02da02d924f502d802d702d602d502d402d324f402d202d102d024f324f2,
  0x24fd02ff24fc24fb24fa02fe02fd02fc02fb02fa02f924f902f802f702f624f802f502f424f724f602f302f202f102f002ef02ee02ed02ec02eb02ea,
  0x25032502031d031c031b031a0319031803110310030f030e030d2501030c030b030a030903080307030625000305030403030302030124ff24fe0300,
  0x033a03390338250a0331033025092508032f032e032d032c032b032a03292507032803270326250603250324250525040323032203210320031f031e,
  0x0353035203510350034f034e034d034c250f250e034b034a03490348034703460345250d034403430342250c03410340033f250b033e033d033c033b,
  0x0370036f036e036d036c036b036a0369036803670366036503640363036203610360035f035e035d035c035b035a0359035803570356251003550354,
  0x038203810380037f257c037e037d037c251b037b251a037a251925182517037903780377037625160375251503742514037325130372037125122511,
  0x039e039d257e257d039c039b039a0399039803970396039503940393039203910390038f038e038d038c038b038a0389038803870386038503840383,
  0x03b2258803b125872586258503b003af03ae03ad03ac03ab258403aa258303a92582258103a803a703a603a503a403a303a2258003a103a0039f257f,
  0x03c003bf03be259803bd03bc25972596259503bb259403ba2593259225912590258f03b9258e258d03b803b703b603b503b4258c258b258a258903b3,
  0x03da25a203d903d803d725a103d603cf25a0259f03ce03cd03cc03cb03ca03c9259e259d259c03c8259b259a03c703c603c503c403c303c203c12599,
  0x03fc03fb03fa03f903f803f703f603ef03ee03ed03ec03eb03ea03e903e803e703e603e525a403e403e303e203e125a303e003df03de03dd03dc03db,
  0x0413041225ab25aa041125a90410040f040e25a825a7040d25a625a5040c040b040a040904080407040604050404040304020401040003ff03fe03fd,
  0x042704260425042404230422042125b50420041f041e25b4041d041c25b325b225b1041b041a04190418041725b025af25ae041625ad25ac04150414,
  0x25c025bf043a04390438043704360435043425be04330432043125bd0430042f25bc25bb042e042d042c042b042a042925ba25b925b8042825b725b6,
  0x0453045204510450044f044e044d044c044b044a0449044804470446044525c504440443044225c404410440043f25c3043e043d25c225c1043c043b,
  0x25ce046825cd046725cc25cb0466046504640463046225ca046125c90460045f045e25c8045d045c25c725c6045b045a045904580457045604550454,
  0x0480047f047e25d4047d047c047b047a047904780477047604750474047325d304720471047025d2046f046e046d25d125d025cf046c046b046a0469,
  0x04a404a304a204a104a0049f049e049d049c049b049a049904980497049604950494048d048c048b048a048904880487048604850484048304820481,
  0x04c204c104c004bf04be04bd04bc04bb263a04ba25d925d804b904b804b704b604b504b404ad25d704ac04ab04aa25d604a904a804a725d504a604a5,
  0x2643264204d704d604d504d404d304d2264104d1264004d0263f04cf04ce04cd04cc04cb04ca04c904c8263e04c704c604c5263d04c404c3263c263b,
  0x04ed04ec04eb264b04ea04e904e804e704e604e5264a04e4264904e32648264704e204e104e004df04de04dd04dc2646264504db04da264404d904d8,
  0x05090508050705060505264d0504050305020501050004ff04fe264c04fd04fc04fb04fa04f904f804f704f604f504f404f304f204f104f004ef04ee,
  0x052505240523264f052205210520264e051f051e051d051c051b051a0519051805170516051505140513051205110510050f050e050d050c050b050a,
  0x053d2655053c053b053a053905380537265426530536053505340533053205310530052f052e052d26522651052c052b052a05290528052705262650,
  0x0558265e265d265c055705560555265b05540553265a26590552054b054a0549054805472658054605450544265726560543054205410540053f053e,
  0x05730572056b056a05692667056805670566266605650564056326650562266405610560055f26632662055e2661055d2660265f055c055b055a0559,
  0x058c058b058a05890588266c0587266b058605850584266a058305822669266805810580057f057e057d057c057b057a057905780577057605750574,
  0x267d267c267b059905980597267a2679267826772676059605952675059426742673267205932671059205910590058f2670058e266f058d266e266d,
  0x268a05aa2689268805a905a805a705a605a505a405a3268705a205a105a02686059f059e268526842683059d059c059b268226812680267f267e059a,
  0x05c505c405c305c205c105c005bf05be05bd05bc05bb05ba05b905b805b705b605b505b405b305b205b1268d05b005af05ae05ad05ac05ab268c268b,
  0x05e305e205e105e005df05de05dd05dc05db05da05d905d805d705d605d505d405d305d205d105d005cf05ce05cd05cc05cb05ca05c905c805c705c6,
  0x05f405f326fa05f226f905f126f805f02697269605ef05ee05ed05ec2695269405eb2693269205ea05e9269105e82690268f268e05e705e605e505e4,
  0x0608060706060605060406032704270327020602270127000601060005ff05fe05fd05fc05fb26ff05fa05f905f826fe05f705f626fd26fc05f526fb,
  0x0626270a06250624062306220621062027092708061f061e061d061c061b061a06190618061706160615270706140613061227060611061006092705,
  0x06470646270d270c064506440643064206410640063f063e063d063c063b063a06390638063706360635063406330632063106300629270b06280627,
  0x0658271a0657065606552719065406532718065227170651271606502715064f27142713064e064d064c2712064b2711064a2710270f06490648270e,
  0x06740673067206710670066f066e271c066d066c066b066a0669066806670666066506640663066206610660065f065e065d065c065b271b065a0659,
  0x068e2720068d068c068b271f068a06890688271e0687068606850684068306820681271d0680067f067e067d067c067b067a06790678067706760675,
  0x06a806a706a606a506a406a306a206a106a0069f069e2724069d069c069b069a0699069806970696272306952722272106940693069206910690068f,
  0x06c206c106c006bf06be272806bd06bc06bb272706ba06b92726272506b806b706b606b506b406b306b206b106b006af06ae06ad06ac06ab06aa06a9,
  0x06e106e006df06de06dd06dc06db06da06d906d806d706d606d506d406d3272d06d206d106d006cf06ce06c7272c06c6272b06c5272a272906c406c3,
  0x070307020701070006ff06fe06fd06fc06fb06fa06f906f806f706f606f506f406f3272f06f206f106f006ef06ee06e706e6272e06e506e406e306e2,
  0x2735071b2734071a071907180717071607150714071327330712071107102732070f070e070d2731070c070b070a0709070807072730070607050704,
  0x273b0733073207310730273a072f072e072d072c072b072a0729273907280727072627380725072407232737072207210720071f071e071d2736071c,
  0x074707462745074527440744274327420743074207410740073f2741073e2740273f073d073c273e073b073a273d273c073907380737073607350734,
  0x07640763076207610760075f075e075d075c075b075a0759075807570756075507540753075207510750074f074e074d074c2746074b074a07490748,
  0x0777077607750774077327512750274f274e0772274d274c07710770076f076e076d076c076b274b274a076a07692749076807672748274707660765,
  0x27bd27bc27bb078f078e078d078c078527ba27b927b8078427b727b60783078207810780077f077e077d2755077c077b077a27540779077827532752,
  0x07ac07a507a407a307a207a107a0079f079e079d27c427c327c2079c27c127c0079b079a0799079807970796079527bf07940793079227be07910790,
  0x07ca07c907c807c707c607c507c407c307c207c107c007bf07be07bd07bc07bb07ba07b907b807b707b607b507b407b307b207b107b007af07ae07ad,
  0x07e507e407e327c707e207e127c627c507e007df07de07dd07dc07db07da07d907d807d707d607d507d407d307d207d107d007cf07ce07cd07cc07cb,
  0x07f627d407f507f407f327d307f207f127d227d127d007f007ef07ee07ed07ec27cf27ce27cd07eb27cc27cb07ea07e907e807e727ca27c907e627c8,
  0x080e080d080c080b080a08090808080708060805080427da080308020801080007ff07fe27d927d827d707fd27d627d507fc07fb07fa07f907f807f7,
  0x082b082a0829082808270826082508240823082208210820081f081e081d081c081b081a08190818081727db0816081508140813081208110810080f,
  0x084b084a0843084208410840083f27df083e083d083c27de083b083a27dd27dc0839083808370836083508340833083208310830082f082e082d082c,
  0x086c086b086a0863086208610860085f085e27e2085d085c085b085a08590858085727e108560855085408530852085127e00850084f084e084d084c,
  0x0889088808870886088508840883088208810880087f087e087d087c087b087a08790878087727e30876087508740873087208710870086f086e086d,
  0x08a508a408a308a208a108a0089f089e089d089c089b089a0899089808970896089527e508940893089227e408910890088f088e088d088c088b088a,
  0x08c308c208c108c008bf08be08bd08bc08bb08ba08b908b808b708b608b508b408b308b208b108b008af08ae08ad08ac08ab08aa08a908a808a708a6,
  0x08da08d908d808d727ec08d608d508d408d327eb27ea08d208d108d008cf08ce08cd27e908cc08cb08ca27e808c908c827e727e608c708c608c508c4,
  0x08f808f708f608f508f408f308f208f108f008ef08ee08ed08ec08eb08ea08e908e808e708e608e508e408e308e208e108e008df08de08dd08dc08db,
  0x091a27ee0919091809170916091509140913091209110910090f090e090d090c090b090a090909080901090008ff08fe08fd08fc08fb08fa08f927ed,
  0x093909380937093609350934093309320931093027f3092f092e092d27f227f1092c092b092a092909280921092027f0091f091e091d27ef091c091b,
  0x095427f60953095227f527f409510950094f094e094d094c094b094a0949094809470946094509440943094209410940093f093e093d093c093b093a,
  0x096b096a096927fd09680967096627fc096509640963096209610960095f095e27fb095d27fa27f9095c095b095a095909580957095627f827f70955,
  0x098328030982098109802802097f097e097d2801097c097b097a0979097809770976097509740973280027ff097209710970096f096e096d096c27fe,
  0x099909980997280b099609950994280a099309922809280809910990098f098e098d098c2807098b2806098a28052804098909880987098609850984,
  0x09ab09aa09a909a809a7287709a609a509a4287609a309a2287528742813281209a109a0099f28112810280f280e099e280d280c099d099c099b099a,
  0x09c709c609bf09be09bd09bc09bb09ba09b909b809b7287f09b609b5287e287d09b409b309b209b109b009af287c287b287a09ae2879287809ad09ac,
  0x09e909e809e709e609df09de09dd09dc09db09da09d909d809d709d609d509d409d309d209d109d009cf09ce09cd09cc288109cb288009ca09c909c8,
  0x28880a002887288609ff09fe09fd09fc09fb09fa09f9288509f809f709f6288409f509f42883288209f309f209f109f009ef09ee09ed09ec09eb09ea,
  0x28930a1328920a12289128900a110a100a0f0a0e0a0d0a0c0a0b288f0a0a0a090a08288e0a070a06288d288c288b0a050a040a030a020a01288a2889,
  0x0a280a27289c289b289a0a26289928980a250a240a230a220a210a200a1f28970a1e0a1d0a1c28960a1b0a1a289528940a190a180a170a160a150a14,
  0x0a420a410a400a3f0a3e0a3d28a00a3c289f0a3b0a3a0a390a380a370a360a350a340a330a320a310a30289e0a2f0a2e0a2d289d0a2c0a2b0a2a0a29,
  0x0a580a570a560a550a540a5328a80a5228a70a5128a628a50a500a4f0a4e0a4d0a4c0a4b0a4a28a40a490a480a4728a30a460a4528a228a10a440a43,
  0x0a730a720a710a700a6f0a6e0a6d0a6c28ab0a6b0a6a0a690a680a670a660a650a640a630a620a610a600a5f0a5e0a5d0a5c28aa0a5b0a5a0a5928a9,
  0x0a950a940a9328ad0a920a910a900a8f0a8e0a8d0a8c28ac0a8b0a8a0a890a880a870a860a850a840a7d0a7c0a7b0a7a0a790a780a770a760a750a74,
  0x0ab128b50ab00aaf0aae28b40aad0aac0aab0aaa0aa90aa828b30aa728b20aa628b128b00aa50aa40a9d0a9c0a9b0a9a0a9928af0a980a970a9628ae,
  0x0ac80ac70ac628bc0ac50ac428bb28ba0ac30ac20ac10ac00abf0abe28b90abd28b80abc28b70abb0aba0ab90ab80ab70ab60ab50ab428b60ab30ab2,
  0x0ae00adf0ade0add0adc0adb0ada0ad90ad828c20ad70ad60ad50ad40ad30ad228c10ad128c00ad028bf28be0acf0ace0acd0acc0acb0aca0ac928bd,
  0x0afc0afb0afa0af90af80af70af60af50af40af30af228c40af10af00aef0aee0aed0aec0aeb28c30aea0ae90ae80ae70ae60ae50ae40ae30ae20ae1,
  0x0b160b150b140b130b1228c80b110b100b0f28c70b0e0b0d28c628c50b0c0b0b0b0a0b090b080b070b060b050b040b030b020b010b000aff0afe0afd,
  0x0b2d0b2c0b2b0b2a0b290b280b2728cf0b260b250b2428ce0b230b2228cd28cc0b210b200b1f0b1e0b1d0b1c28cb0b1b28ca0b1a0b1928c90b180b17,
  0x293929380b470b460b450b440b430b420b3b29370b3a0b390b3829360b370b36293529340b350b340b330b320b310b3029330b2f29320b2e28d128d0,
  0x0b660b650b640b630b620b5b0b5a0b590b580b570b560b550b540b530b520b510b500b4f0b4e0b4d0b4c293e293d0b4b0b4a293c293b0b49293a0b48,
  0x29460b7c29450b7b294429430b7a0b790b780b770b760b750b7429420b730b720b7129410b700b6f2940293f0b6e0b6d0b6c0b6b0b6a0b690b680b67,
  0x0b8d295329520b8c29510b8b2950294f0b8a0b890b880b870b86294e294d294c294b294a0b8529490b840b83294829470b820b810b800b7f0b7e0b7d,
  0x0b9f0b9e0b9d295f295e295d295c0b9c295b295a0b9b0b9a0b990b980b970b960b9529590b940b930b9229580b910b902957295629550b8f29540b8e,
  0x0bb90bb80bb70bb60bb50bb429630bb30bb20bb10bb00baf0bae0bad0bac0bab0baa0ba90ba829620ba70ba60ba50ba40ba30ba2296129600ba10ba0,
  0x296529640bd50bd40bd30bd20bd10bd00bcf0bce0bcd0bcc0bcb0bca0bc90bc80bc70bc60bc50bc40bc30bc20bc10bc00bbf0bbe0bbd0bbc0bbb0bba,
  0x0be80be72970296f296e0be60be50be40be3296d296c0be2296b0be1296a29690be00bdf0bde0bdd0bdc29680bdb29670bda0bd90bd829660bd70bd6,
  0x0c02297a0c010c00297929780bf90bf80bf70bf60bf50bf42977297629750bf3297429730bf20bf10bf00bef0bee0bed0bec29720beb0bea0be92971,
  0x0c200c190c180c170c160c150c1429800c130c120c110c10297f0c0f297e297d297c0c0e0c0d0c0c0c0b0c0a0c090c080c070c060c05297b0c040c03,
  0x0c3929850c380c370c36298429830c35298229810c340c330c320c310c300c2f0c2e0c2d0c2c0c2b0c2a0c290c280c270c260c250c240c230c220c21,
  0x0c500c4f0c4e0c4d0c4c0c4b0c4a298c0c490c480c47298b0c460c450c440c430c420c41298a0c4029890c3f298829870c3e0c3d0c3c0c3b0c3a2986,
  0x0c6c0c6b0c6a0c690c680c670c660c650c640c630c620c610c600c5f0c5e0c5d0c5c0c5b0c5a0c59298e298d0c580c570c560c550c540c530c520c51,
  0x0c870c860c850c840c830c820c8129f10c800c7f0c7e29f00c7d0c7c0c7b298f0c7a0c790c780c770c760c750c740c730c720c710c700c6f0c6e0c6d,
  0x29f80c9e0c9d0c9c0c9b0c9a0c990c980c9729f70c960c950c9429f60c930c920c9129f50c900c8f0c8e0c8d0c8c0c8b29f40c8a29f30c8929f20c88,
  0x2a040cb02a032a020caf0cae0cad0cac0cab2a012a0029ff29fe0caa0ca929fd0ca829fc29fb29fa0ca70ca60ca50ca40ca30ca20ca10ca029f90c9f,
  0x0ccc0ccb2a0c0cca2a0b0cc90cc80cc70cc60cc50cc40cc30cc22a0a0cc10cc00cbf2a090cbe0cb70cb62a082a070cb52a060cb40cb30cb22a050cb1,
  0x0cef0cee0ced0cec0ceb0cea0ce90ce80ce70ce60ce50ce40ce30ce20ce10ce00cdf0cde0cd70cd60cd50cd40cd32a0d0cd20cd10cd00ccf0cce0ccd,
  0x0d0a0d090d080d070d060d050d040d030d020d010d000cff0cfe0cfd0cfc0cfb0cfa2a100cf90cf80cf72a0f0cf60cf50cf42a0e0cf30cf20cf10cf0,
  0x0d230d220d210d200d1f0d1e0d1d0d1c2a150d1b0d1a2a140d190d180d170d160d150d140d132a130d120d110d102a120d0f0d0e0d0d2a110d0c0d0b,
  0x0d3c0d3b0d3a0d390d380d370d360d350d340d332a1a0d320d312a190d300d2f0d2e0d2d0d2c0d2b0d2a2a180d290d280d272a170d260d250d242a16,
  0x0d580d572a1c2a1b0d560d550d540d530d520d510d500d4f0d4e0d4d0d4c0d4b0d4a0d490d480d470d460d450d440d430d420d410d400d3f0d3e0d3d,
  0x0d662a2c2a2b2a2a2a292a280d650d642a270d632a260d622a252a242a230d612a222a210d600d5f0d5e0d5d0d5c2a200d5b2a1f2a1e0d5a0d592a1d,
  0x0d7d0d7c0d752a390d740d732a382a370d720d712a360d700d6f0d6e2a350d6d2a340d6c2a332a320d6b0d6a0d690d682a312a302a2f2a2e2a2d0d67,
  0x0d910d900d8f0d8e0d8d2a430d8c0d8b2a422a410d8a0d892a400d880d870d862a3f2a3e2a3d0d852a3c2a3b0d840d830d820d810d800d7f0d7e2a3a,
  0x0db40db30db20db10db00daf0dae0dad0dac0dab0daa0da90da80da70da60da50da40da30da20da10da00d9f2a440d9e0d9d0d9c0d950d940d930d92,
  0x0dcc0dcb0dca2a4a0dc92a492a480dc80dc72a470dc60dc52a462a450dc40dc30dc20dc10dc00dbf0dbe0dbd0dbc0dbb0dba0db90db80db70db60db5,
  0x0de00ddf0dde0ddd0ddc0ddb0dda2ab42ab30dd90dd82ab20dd70dd62ab12ab00dd50dd40dd30dd20dd12aaf2aae0dd02a4d0dcf2a4c2a4b0dce0dcd,
  0x2abe0df40df30df20df10df00def0dee0ded2abd0dec0deb0dea2abc0de90de82abb2aba0de70de60de50de40de30de22ab92ab82ab70de12ab62ab5,
  0x0e0c0e0b0e0a0e090e080e070e060e050e040e030e020e010e000dff0dfe2ac40dfd0dfc0dfb2ac30dfa0df92ac20df80df70df62ac12ac02abf0df5,
  0x2acd0e212acc0e202acb2aca0e1f0e1e0e1d0e1c0e1b0e1a0e192ac90e180e170e162ac80e152ac72ac62ac50e140e130e120e110e100e0f0e0e0e0d,
  0x0e420e410e402ad00e3f0e3e0e3d0e3c0e3b0e3a0e330e320e310e300e2f0e2e0e2d0e2c0e2b2acf0e2a0e290e282ace0e270e260e250e240e230e22,
  0x0e640e630e620e610e602ad20e5f0e5e0e5d0e5c0e5b0e5a0e530e520e510e500e4f0e4e0e4d0e4c0e4b0e4a0e490e480e472ad10e460e450e440e43,
  0x0e7c0e7b0e7a0e790e780e770e760e750e740e732ad82ad70e720e710e700e6f0e6e0e6d0e6c2ad60e6b0e6a0e692ad50e680e672ad42ad30e660e65,
  0x2adc2adb0e960e950e940e930e920e910e900e8f0e8e0e8d0e8c0e8b0e8a0e890e880e870e860e850e840e830e820e810e802ada0e7f0e7e0e7d2ad9,
  0x0ea80ea70ea62ae80ea52ae72ae60ea40ea30ea22ae50ea12ae40ea02ae32ae20e9f0e9e0e9d0e9c0e9b2ae12ae02adf2ade0e9a0e992add0e980e97,
  0x0ec30ec20ec10ec00ebf2aeb0ebe0ebd0ebc0ebb0eba0eb90eb82aea0eb70eb60eb50eb40eb30eb20eb10eb00eaf0eae0ead2ae90eac0eab0eaa0ea9,
  0x0ede0edd0edc2aee0edb0eda2aed2aec0ed90ed80ed70ed60ed50ed40ed30ed20ed10ed00ecf0ece0ecd0ecc0ecb0eca0ec90ec80ec70ec60ec50ec4,
  0x0efd2af30efc0efb0efa2af20ef90ef80ef12af10ef00eef0eee0eed0eec0eeb2af00eea0ee90ee80ee70ee60ee50ee40ee30ee20ee10ee00edf2aef,
  0x0f1a0f190f182afa0f110f100f0f2af90f0e0f0d2af82af70f0c0f0b0f0a0f090f080f072af60f062af50f050f042af40f030f020f010f000eff0efe,
  0x0f350f340f330f320f310f300f2f0f2e0f2d0f2c0f2b0f2a0f290f280f270f260f250f240f230f220f210f202afd0f1f2afc2afb0f1e0f1d0f1c0f1b,
  0x0f4e0f4d0f4c0f4b0f4a2b020f492b010f480f470f462b000f450f442aff2afe0f430f420f410f400f3f0f3e0f3d0f3c0f3b0f3a0f390f380f370f36,
  0x2b6f2b6e0f5f0f5e0f5d0f5c0f5b2b6d0f5a2b6c0f590f580f572b0b0f560f552b0a2b090f540f530f520f512b082b072b060f502b050f4f2b042b03,
  0x2b7a0f722b792b780f710f700f6f0f6e0f6d0f6c0f6b2b770f6a0f690f682b760f670f662b752b742b730f650f640f630f620f612b722b712b700f60,
  0x0f8b0f8a0f890f880f872b7f0f860f850f840f830f820f810f800f7f0f7e0f7d0f7c0f7b0f7a0f792b7e2b7d0f780f770f760f750f740f732b7c2b7b,
  0x0fa90fa80fa70fa60fa50fa40fa30fa20fa10fa00f9f0f9e0f9d0f9c0f9b0f9a0f990f980f970f960f950f940f930f920f910f900f8f0f8e0f8d0f8c,
  0x0fc40fc30fc20fc12b882b872b860fc00fbf2b850fbe0fbd0fbc0fbb0fba0fb90fb82b842b830fb70fb62b820faf0fae2b812b800fad0fac0fab0faa,
  0x0fe60fe50fe40fe30fe20fe12b8a0fe00fdf0fde0fdd0fdc0fdb0fda0fd90fd80fd70fd60fcf0fce0fcd0fcc0fcb0fca0fc90fc80fc72b890fc60fc5,
  0x0ffd0ffc0ffb0ffa0ff90ff80ff70ff62b912b902b8f0ff52b8e2b8d0ff40ff30ff20ff10ff00fef0fee0fed0fec0feb0fea0fe90fe80fe72b8c2b8b,
  0x101910182b932b9210171016101510141013101210111010100f100e100d100c100b100a10091008100710061005100410031002100110000fff0ffe,
  0x103210311030102f102e102d102c102b102a1029102810272b981026102510242b972b961023102210211020101f101e101d2b95101c101b101a2b94,
  0x1050104f104e104d104c104b104a1049104810471046104510441043104210411040103f103e103d103c103b103a1039103810371036103510341033,
  0x106d106c106b106a106910681067106610652b9910641063106210611060105f105e105d105c105b105a105910581057105610551054105310521051,
  0x109610951094108d108c108b108a10891088108710862b9a108510841083108210811080107f107e107d107c107b107a107910781077107610751074,
  0x10af10ae10ad10ac10ab2b9f10aa10a910a82b9e10a710a62b9d2b9c10a510a410a310a210a110a02b9b109f109e109d109c109b109a109910981097,
  0x10ca10c910c810c710c610c510c410c310c210c110c010bf10be10bd10bc10bb10ba10b910b810b710b610b52ba210b42ba110b310b22ba010b110b0,
  0x10e810e710e610e510e410e310e210e110e010df10de10dd10dc10db10da10d910d810d710d610d510d410d310d210d110d010cf10ce10cd10cc10cb,
  0x110611051104110311021101110010ff10fe10fd10fc10fb10fa10f910f810f710f610f510f410f310f210f110f010ef10ee10ed10ec10eb10ea10e9,
  0x2ba4112211211120111f111e111d111c111b111a1119111811171116111511141113111211111110110f2ba3110e110d110c110b110a110911081107,
  0x11411140113f113e113d113c2ba92ba8113b113a113911381137113611352ba71134113311322ba6112b112a11292ba5112811271126112511241123,
  0x116511641163116211611160115f115e115d115c115b115a11591158115711561155115411531152114b114a11491148114711461145114411431142,
  0x117b117a11791178117711762bb111752bb011742baf2bae1173117211711170116f116e116d2bad116c116b116a2bac116911682bab2baa11671166,
  0x2bc12bc0118911882bbf1187118611852bbe2bbd2bbc11842bbb2bba1183118211811180117f2bb92bb82bb72bb6117e117d2bb52bb4117c2bb32bb2,
  0x119e119d2c2a2bc9119c119b119a1199119811972bc82bc72bc611962bc52bc4119511941193119211911190118f2bc3118e118d118c2bc2118b118a,
  0x11b42c3211b311b211b12c3111b011af11ae11ad11ac11ab2c3011aa2c2f11a92c2e2c2d11a811a711a611a511a411a311a22c2c11a111a0119f2c2b,
  0x2c3b11c911c82c3a2c392c382c372c3611c711c611c511c411c311c22c3511c111c011bf11be2c3411bd11bc11bb11ba11b911b811b72c3311b611b5,
  0x11da2c4811d911d811d72c4711d611d52c462c4511d42c4411d311d211d111d02c432c422c4111cf2c402c3f11ce11cd11cc11cb2c3e2c3d11ca2c3c,
  0x11f511f411f32c5111f211f111f02c5011e911e82c4f2c4e11e711e611e511e411e311e22c4d2c4c2c4b11e12c4a2c4911e011df11de11dd11dc11db,
  0x121112101209120812072c591206120512042c581203120212012c57120011ff11fe11fd11fc11fb2c562c552c5411fa2c532c5211f911f811f711f6,
  0x122812271226122512242c6012232c5f1222122112202c5e121f2c5d2c5c2c5b121e121d121c121b121a12192c5a1218121712161215121412131212,
  0x123d123c123b123a123912381237123612352c691234123312322c68123112302c672c66122f122e2c65122d122c122b2c64122a2c6312292c622c61,
  0x2c6f125512542c6e1253125212511250124f124e124d2c6d124c124b124a2c6c1249124812472c6b1246124512441243124212412c6a1240123f123e,
  0x126c126b2c76126a2c752c7412691268126712661265126412632c731262126112602c72125f125e125d2c71125c125b125a12591258125712562c70,
  0x128212812c7e12802c7d127f2c7c2c7b127e127d127c127b127a127912782c7a1277127612752c79127412732c782c77127212711270126f126e126d,
  0x2ce912952ce812942c8712932c8612922c852c8412911290128f128e128d128c128b2c832c82128a12892c81128812872c802c7f1286128512841283,
  0x12b612b512b412b312b212b112b02cec12af12ae12a712a612a512a412a312a212a112a0129f129e129d129c129b129a1299129812972ceb12962cea,
  0x2cf42cf312d212d112d012cf12ce12c72cf212c612c512c412c32cf112c212c112c012bf12be12bd12bc2cf012bb12ba12b92cef12b812b72cee2ced,
  0x12e812e72cfc2cfb12e612e512e412e312e212e12cfa12e02cf912df2cf82cf712de12dd12dc12db12da12d912d82cf612d712d612d52cf512d412d3,
  0x12ff2d0312fe12fd2d022d0112fc12fb12fa12f912f812f72d0012f62cff12f512f42cfe12f312f212f112f012ef12ee12ed2cfd12ec12eb12ea12e9,
  0x13171316131513141313131213111310130f130e130d130c130b130a2d0913092d0813082d072d061307130613051304130313022d052d0413011300,
  0x13302d0e2d0d132f132e2d0c132d132c2d0b2d0a132b132a1329132813271326132513241323132213211320131f131e131d131c131b131a13191318,
  0x1343134213412d191340133f133e2d182d17133d2d162d15133c2d14133b133a133913382d1313372d1213362d112d102d0f13351334133313321331,
  0x135813571356135513542d221353135213512d211350134f2d202d1f2d1e134e134d134c134b134a2d1d2d1c134913482d1b2d1a1347134613451344,
  0x137813771376137513741373137213711370136f136e136d136c136513641363136213611360135f135e135d2d262d25135c135b2d242d23135a1359,
  0x139b139a1399139813971396139513941393139213911390138f138e138d138c138513841383138213811380137f137e2d27137d137c137b137a1379,
  0x13b213b12d2e2d2d13b013af13ae13ad13ac2d2c13ab2d2b13aa13a913a82d2a13a713a62d292d2813a513a413a313a213a113a0139f139e139d139c,
  0x13cb13ca13c913c813c713c613c513c413c313c213c113c013bf2d3313be13bd13bc2d3213bb13ba13b92d3113b813b713b613b513b413b32d302d2f,
  0x13e913e813e713e613e513e413e313e213e113e013df13de13dd13dc13db13da13d913d813d713d613d513d413d313d213d113d013cf13ce13cd13cc,
  0x140614051404140314021401140013ff13fe13fd13fc13fb13fa13f913f813f713f613f513f413f313f22d3413f113f013ef13ee13ed13ec13eb13ea,
  0x141b141a14191418141714162d3d1415141414132d3c2d3b141214111410140f140e2d3a140d2d392d38140c140b2d37140a14092d362d3514081407,
  0x143a2d4214391438143714361435143414332d41143214311430142f142e142d142c142b142a1423142214211420141f141e2d40141d141c2d3f2d3e,
  0x145c145b145a2d4414591458145714561455145414532d43145214511450144f144e144d144c144b144a1443144214411440143f143e143d143c143b,
  0x147514741473147214712da91470146f146e146d146c146b146a1469146814672da82da714661465146414631462146114602da6145f145e145d2d45,
  0x1490148f148e2dac148d148c2dab2daa148b148a1489148814871486148514841483148214811480147f147e147d147c147b147a1479147814771476,
  0x14a914a814a714a614a514a414a314a214a12db114a0149f149e149d149c149b2db0149a149914982daf2dae14971496149514941493149214912dad,
  0x14c514c414c314c214c114c014bf14be14bd14bc14bb2db314ba14b914b814b714b614b514b42db214b314b214b114b014af14ae14ad14ac14ab14aa,
  0x14e114e014df14de14dd14dc14db14da14d92db514d814d714d62db414d514d414d314d214d114d014cf14ce14cd14cc14cb14ca14c914c814c714c6,
  0x150b150a150915081501150014ff14fe14fd14fc14fb14fa14f914f814f714f614f514f414f314f214f114f014ef14ee14ed14ec14eb14ea14e914e8,
  0x2dbe2dbd2dbc1520151f151e151d2dbb151c2dba151b151a15192db9151815172db82db71516151515141513151215112db61510150f150e150d150c,
  0x153a153915382dc215371536153515341533153215312dc11530152f152e2dc0152d152c152b2dbf152a152915281527152615251524152315221521,
  0x2dca15502dc9154f2dc82dc7154e154d154c154b154a154915482dc61547154615452dc5154415432dc42dc3154215411540153f153e153d153c153b,
  0x1560155f2dd82dd72dd6155e2dd52dd42dd3155d155c155b155a2dd22dd12dd015592dcf2dce2dcd155815572dcc2dcb155615551554155315521551,
  0x15731572157115702de32de22de1156f2de02ddf156e156d156c156b156a156915682dde1567156615652ddd156415632ddc2ddb15622dda2dd91561,
  0x2dee15862ded1585158415832dec15822deb15812dea2de91580157f157e157d2de8157c157b2de7157a157915782de6157715762de52de415751574,
  0x2df42df3159e159d159c159b159a159915981597159615952df215941593159215911590158f158e158d2df1158c158b158a2df01589158815872def,
  0x15b115b02e652e6415af2e0315ae2e0215ad2e012e002dff2dfe2dfd2dfc2dfb15ac15ab15aa15a915a82dfa2df92df82df715a72df62df515a6159f,
  0x15cb2e6f15ca2e6e2e6d2e6c15c915c815c715c615bf15be2e6b15bd2e6a15bc2e692e6815bb15ba15b915b815b715b615b52e6715b415b315b22e66,
  0x15db15da15d92e7d15d815d715d62e7c2e7b2e7a2e7915d515d415d32e782e772e762e752e742e7315d215d115d015cf2e722e7115ce2e7015cd15cc,
  0x2e872e8615ef15ee15ed2e8515ec15eb2e842e8315ea15e915e815e715e615e515e42e822e8115e32e802e7f15e215e115e015df15de15dd15dc2e7e,
  0x1601160015ff2e9315fe15fd15fc2e9215fb15fa2e912e9015f915f815f715f62e8f15f52e8e15f42e8d15f32e8c2e8b2e8a15f215f12e8915f02e88,
  0x16171616161516141613161216111610160f2e9b160e160d2e9a2e99160c160b160a1609160816072e982e972e9616062e952e941605160416031602,
  0x162e162d162c162b162a162916282ea21627162616252ea1162416232ea02e9f162216211620161f161e161d2e9e161c2e9d161b161a2e9c16191618,
  0x2eac2eab164216411640163f163e163d163c2eaa163b163a16392ea9163816372ea82ea71636163516341633163216312ea616302ea5162f2ea42ea3,
  0x2eb716552eb62eb5165416531652165116502eb42eb32eb2164f164e164d2eb1164c164b2eb02eaf164a164916481647164616452eae16442ead1643,
  0x2ec02ebf1670166f2ebe2ebd166e166d166c166b166a166916682ebc1667166616652ebb1664165d2eba2eb9165c165b165a1659165816572eb81656,
  0x168d168c2f27168b168a16892f262f2516881687168616851684167d167c2f24167b167a16792f23167816772f222ec1167616751674167316721671,
  0x16a316a216a116a02f2f169f2f2e169e2f2d2f2c169d169c169b169a1699169816972f2b1696169516942f2a169316922f292f2816911690168f168e,
  0x16b816b716b616b52f3816b42f3716b32f3616b22f352f3416b116b016af16ae16ad16ac16ab2f3316aa16a916a82f3216a716a62f312f3016a516a4,
  0x16c62f482f472f462f452f442f432f422f4116c52f4016c42f3f2f3e16c32f3d16c216c116c016bf16be2f3c16bd16bc16bb2f3b16ba16b92f3a2f39,
  0x16de16dd2f4e2f4d16dc16db16da16d916d816d716d616d52f4c16d416d32f4b16d216d116d016cf16ce16cd16cc2f4a16cb16ca16c92f4916c816c7,
  0x16ed2f5d16ec16eb2f5c2f5b16ea2f5a16e916e816e72f592f582f572f5616e62f552f542f5316e516e416e316e22f522f512f5016e116e016df2f4f,
  0x16fe16fd16fc2f6a16fb16fa2f692f6816f916f816f716f616f52f672f662f652f6416f42f632f6216f316f216f116f016ef2f6116ee2f602f5f2f5e,
  0x17112f7517102f74170f2f73170e170d2f722f71170c170b170a1709170817072f702f6f2f6e17062f6d2f6c17051704170317021701170016ff2f6b,
  0x1730172f172e2f7a172d172c172b2f79172a172917282f781727172617251724172317222f77171b171a171917182f76171717161715171417131712,
  0x174f174e174d2f7f174c2f7e174b174a17492f7d174817472f7c2f7b17461745174417431742173b173a173917381737173617351734173317321731,
  0x17641763176217611760175f175e2fe8175d175c175b2fe7175a17592fe62fe5175817571756175517542fe42fe317532fe217522fe12fe017511750,
  0x2ff12ff017791778177717761775177417732fef1772177117702fee176f176e176d2fed176c176b176a1769176817672fec17662feb17652fea2fe9,
  0x17941793179217911790178f178e178d178c178b178a178917881787178617851784178317822ff417811780177f177e177d177c2ff32ff2177b177a,
  0x2ffd17a92ffc17a82ffb2ffa17a717a617a517a417a32ff917a22ff817a117a0179f2ff7179e179d2ff62ff5179c179b179a17991798179717961795,
  0x17be17bd300617bc300517bb300417ba17b917b817b717b617b517b417b3300317b217b117b017af17ae17ad30023001300017ac17ab17aa2fff2ffe,
  0x17d917d817d717d63009300817d517d417d317d217d117d017cf17ce17cd17cc17cb17ca17c917c817c717c617c517c417c3300717c217c117c017bf,
  0x17f617f517f417f317f217f1301017f0300f17ef300e300d17ee17ed17ec17eb17ea17e917e8300c17e717e617e5300b17e417e317e2300a17e117e0,
  0x3016301518141813181218111810180f3014180e180d180c180b180a180918081807180618051804180318021801180017f9301317f817f730123011,
  0x188718861885301f18841883188218811880187f301e187e301d181f301c301b181e181d181c181b181a301a30193018181918181817301718161815,
  0x18a918a818a718a618a5302118a418a318a218a118a0189f189e302018971896189518941893189218911890188f188e188d188c188b188a18891888,
  0x18ca18c918c8302418c718c63023302218c518c418c318c218c118c018bf18be18b718b618b518b418b318b218b118b018af18ae18ad18ac18ab18aa,
  0x193f302b193e193d193c302a18dd18dc18db302918da18d918d818d718d618d518d418d3302818d23027302618d118d018cf18ce18cd18cc18cb3025,
  0x195e195d195c3030195519541953302f19521951302e302d1950194f194e194d194c194b194a1949194819471946302c194519441943194219411940,
  0x197e197d197c197519741973197219711970196f196e196d196c196b196a19691968196719661965303419643033196330323031196219611960195f,
  0x19961995199419931992303a1991303930381990198f3037198e198d30363035198c198b198a1989198819871986198519841983198219811980197f,
  0x30a930a81a031a021a011a0030a719ff19fe30a619fd30a519fc30a419fb19fa30a330a2199b30a130a0199a1999309f309e1998303d1997303c303b,
  0x30b31a1d30b230b11a1c1a1b1a1a1a131a121a111a1030b01a0f1a0e1a0d30af1a0c1a0b30ae30ad1a0a1a091a081a071a061a0530ac30ab30aa1a04,
  0x30b81a3c1a3b1a3a1a331a321a311a301a2f1a2e1a2d1a2c1a2b1a2a1a291a281a2730b71a261a251a2430b61a231a221a211a201a1f1a1e30b530b4,
  0x1ab81a591a581a571a561a551a541a531a521a511a501a4f1a4e1a4d1a4c1a4b1a4a1a491a481a471a461a451a441a431a421a411a401a3f1a3e1a3d,
  0x1acd1acc1acb1aca30c130c030bf1ac930be30bd1ac81ac71ac61ac51ac41ac31ac230bc1ac11ac01abf30bb1abe1abd30ba30b91abc1abb1aba1ab9,
  0x1aef1aee1aed1aec1aeb1aea30c31ae91ae81ae71ae61ae51ae41ae31ae21ae11ae01adf1ade1add1adc1adb1ada1ad91ad81ad11ad030c21acf1ace,
  0x1b111b101b0f1b0e1b0d1b0c1b0b1b0a1b0930c51b081b071b061b051b041b031b021b011b001aff1afe1afd1afc1afb1afa1af91af81af11af030c4,
  0x1b8b1b8a30c730c61b891b881b871b861b851b841b831b821b811b801b7f1b7e1b7d1b7c1b7b1b7a1b791b781b771b761b171b161b151b141b131b12,
  0x1ba61ba51ba41ba330d030cf1ba21ba11ba01b9f30ce1b9e30cd1b9d30cc1b9c30cb30ca1b9b1b9a1b991b981b971b961b8f30c91b8e1b8d1b8c30c8,
  0x1bc71bc61bc51bc41bc31bc21bc130d31bc01bbf1bbe1bbd1bbc1bbb1bba30d21bb91bb81bb71bb61baf1bae1bad1bac1bab1baa1ba930d11ba81ba7,
  0x1c3f30d71c3e1c3d1c3c30d61c3b1c3a1c3930d51c381c371c361c351c341bd51bd430d41bd31bd21bd11bd01bcf1bce1bcd1bcc1bcb1bca1bc91bc8,
  0x1c611c601c5f1c5e1c5d1c5c1c5b1c5a1c591c581c571c561c551c541c4d1c4c1c4b1c4a1c491c481c471c4630d930d81c451c441c431c421c411c40,
  0x1c801c7f1c7e1c7d1c7c30de1c7b1c7a1c7930dd1c781c7730dc30db1c761c751c741c6d1c6c1c6b30da1c6a1c691c681c671c661c651c641c631c62,
  0x1cf81cf71cf61cf51cf41cf31cf21c931c921c911c901c8f1c8e1c8d1c8c30e21c8b1c8a1c891c881c871c8630e11c851c841c8330e030df1c821c81,
  0x1d1a1d191d181d171d161d151d141d131d121d0b1d0a1d091d081d071d061d051d041d031d021d011d001cff1cfe1cfd30e430e31cfc1cfb1cfa1cf9,
  0x1d3d1d3c1d3b1d3a1d391d381d371d361d351d341d331d321d2b1d2a1d291d281d271d261d2530e51d241d231d221d211d201d1f1d1e1d1d1d1c1d1b,
  0x1db81db71db61db51db41db31db21db11db01d511d501d4f1d4e1d4d1d4c1d4b1d4a1d491d481d471d4630e61d451d441d431d421d411d401d3f1d3e,
  0x1dd81dd730ea1dd630e91dd51dd430e81dd31dd21dd11dd01dc91dc81dc71dc61dc51dc41dc31dc21dc11dc01dbf30e71dbe1dbd1dbc1dbb1dba1db9,
  0x1dfc1dfb1dfa1df91df81df71df61df51df41df31df21df11df01de91de81de71de61de51de41de31de21de11de01ddf1dde1ddd1ddc1ddb1dda1dd9,
  0x30f31e6f1e6e1e0f1e0e30f230f11e0d1e0c1e0b30f030ef1e0a1e091e081e071e061e051e0430ee1e031e021e0130ed1e001dff30ec30eb1dfe1dfd,
  0x3160315f1e801e7f1e7e1e7d1e7c315e315d315c30fb1e7b30fa30f91e7a1e791e781e771e761e751e7430f81e7330f71e7230f61e711e7030f530f4,
  0x1e9c1e9b1e9a31681e991e981e971e961e951e943167316631651e93316431631e921e911e901e8f1e8e1e871e8631621e851e841e8331611e821e81,
  0x1ebb1eba1eb91eb81eb71eb61eb51eb41eb31eb21eb11eb0316d1eaf1eae1ea71ea6316c1ea51ea41ea31ea21ea11ea01e9f316b1e9e316a1e9d3169,
  0x1f341f331f3231701f311f30316f316e1f2f1f2e1f2d1f2c1ecd1ecc1ecb1eca1ec91ec81ec71ec61ec51ec41ec31ec21ec11ec01ebf1ebe1ebd1ebc,
  0x1f4e317a1f4d1f4c1f4531791f441f43317831771f421f411f401f3f1f3e1f3d3176317531741f3c317331721f3b1f3a1f391f381f371f361f353171,
  0x1f6c1f651f641f631f621f611f6031801f5f1f5e1f5d317f1f5c1f5b1f5a1f591f581f57317e1f56317d1f55317c317b1f541f531f521f511f501f4f,
  0x1f871f861f851f841f831f821f811f801f7f31831f7e1f7d1f7c31821f7b1f7a1f791f781f771f761f7531811f741f731f721f711f701f6f1f6e1f6d,
  0x1ffe1ffd1ffc1ffb1ffa1ff91ff831881ff71ff61ff531871ff41ff3318631851ff21ff11ff01fef1fee1fed31841fec1feb1fea1f8b1f8a1f891f88,
  0x201b201a2019201820172016201520142013318f201220112010318e200f200e200d318d200c200b200a200320022001318c2000318b1fff318a3189,
  0x203e203d203c203b203a2039203820372036203520342033203220312030202f202e202d202c202b202a2023202220212020201f3190201e201d201c,
  0x319720b3319620b23195319420b120b020af20ae20ad20ac20ab319320aa20a920a8319220492048204731912046204520442043204220412040203f,
  0x20d520d420d320d220d120d020cf319920ce20cd20cc20cb20ca20c920c820c120c020bf20be20bd20bc20bb20ba319820b920b820b720b620b520b4,
  0x20f120f020ef20ee31a120ed31a020ec319f319e20eb20ea20e920e820e120e020df319d20de20dd20dc319c20db20da319b319a20d920d820d720d6,
  0x216b216a2169216821672166210731a3210621052104210321022101210020ff20fe20fd20fc20fb20fa20f920f820f720f620f520f431a220f320f2,
  0x218c31a6218b218a2189218821872186217f217e217d217c217b217a2179217821772176217521742173217221712170216f31a5216e216d216c31a4,
  0x21a921a821a731ad21a6219f219e219d219c219b31ac219a31ab219931aa31a9219821972196219521942193219231a821912190218f31a7218e218d,
  0x21c031b421bf21be31b331b221bd21bc21bb21ba21b921b831b121b721b621b521b431b021b321b221b121b021af21ae21ad31af21ac21ab21aa31ae,
  0x22372236223522342233223222312230222f222e222d222c222b222a31b9222931b8222831b731b6222722262225222421c521c421c331b521c221c1,
  0x321f321e321d22552254321c22532252321b321a22512250224f224e224d224c224b224a224922482247224622452244223d223c223b223a22392238,
  0x22712270226f3227226e226d226c3226226b226a322532242269226822672266226522643223225d3222225c32213220225b225a2259225822572256,
  0x22e522e422e322e22283322f228222812280322e227f227e322d322c227d227c227b227a22792278322b2277322a2276322932282275227422732272,
  0x230222fb22fa22f922f822f722f622f522f422f322f222f122f022ef3236323522ee22ed22ec22eb22ea22e932343233323222e83231323022e722e6,
  0x2325232423232322231b231a2319231823172316231523142313231223112310230f230e230d230c230b230a23092308323723072306230523042303,
  0x323f233b323e323d233a233923382337233623352334323c323b23332332323a2331233032393238232f232e232d232c232b232a2329232823272326,
  0x324923ad324823ac3247324623ab23aa23a923a823a723a623a5324523a423a323a2324423a123a03243324223412340233f233e233d233c32413240,
  0x23c923c832513250324f23c7324e324d23c623c523c423c323c223c123c0324c23b923b823b7324b23b623b523b4324a23b323b223b123b023af23ae,
  0x23ec23eb23ea23e923e823e723e623e523e423e323e223e123e023d923d823d723d623d523d423d323d223d123d023cf23ce325223cd23cc23cb23ca,
  0x2460245f245e23ff23fe23fd325a23fc325923fb3258325723fa23f923f823f723f623f523f4325623f323f223f1325523f023ef3254325323ee23ed,
  0x2477326124762475247424732472247132602470246f246e246d325f246c246b246a2469246824672466325e246524642463325d24622461325c325b,
  0x249f249e2497326324962495249424932492249132622490248f248e248d248c248b248a2489248824872486248524842483248224812480247f247e,
  0x24bb24ba24b924b824b7326524b624b524b424b324b224b124b024af24ae24ad24ac24ab24aa24a924a824a724a624a524a4326424a324a224a124a0,
  0x25342533253232682531253032673266252f252e252d252c252b252a2529252825272526252525242523252225212520251f251e251d251c24bd24bc,
  0x25503270254f254e254d326f254c254b254a326e254925482547254625452544326d2543326c2542326b326a25412540253f253e253d253c25353269,
  0x257225712570256f256e256d256c256b256a256925683272256725662565256425632562327125612560255f255e255d255c25552554255325522551,
  0x25e925e825e725e625e5327725e425e325e2327625e125e03275327425df25de25dd25dc25db25da3273257b257a2579257825772576257525742573,
  0x260626052604260326022601260032de25ff25fe25fd32dd25fc25fb25fa32dc25f325f225f125f025ef25ee32db25ed32da25ec32d932d825eb25ea,
  0x32e532e42623262226212620261f261e261d32e3261c261b261a32e22613261232e132e026112610260f260e260d260c260b260a26092608260732df,
  0x269e269d269c269b269a269926982639263826372636263526342633263226312630262f262e262d262c262b262a26292628262732e6262626252624,
  0x32ee26ba32ed26b932ec32eb26b826b126b026af26ae26ad26ac32ea26ab26aa26a932e926a826a732e832e726a626a526a426a326a226a126a0269f,
  0x26ce26cd32f832f732f626cc32f532f426cb26ca26c926c826c726c632f332f226c526c426c332f126c226c132f032ef26c026bf26be26bd26bc26bb,
  0x26e926e826e726e63301330032ff26e532fe32fd26e426e326e226e126e026df26de32fc26dd26dc26db32fb26da26d932fa32f926d826d126d026cf,
  0x2763276227612760275f275e3303275d275c275b275a275927582757275626f726f626f526f426f326f226f126f026ef26ee26ed26ec330226eb26ea,
  0x33053304278527842783278227812780277f277e277d277c277b277a2779277827772776276f276e276d276c276b276a276927682767276627652764,
  0x279f279e330f330e279d279c279b279a27992798330d330c330b2797330a33092796278f278e278d278c3308278b3307278a27892788330627872786,
  0x27b5331727b427b327b2331627b127b027af27ae27ad27ac331527ab331427aa3313331227a927a827a727a627a527a427a3331127a227a127a03310,
  0x2834282d282c331a282b282a282933192828282728262825282428232822331828212820281f281e281d281c281b281a281928182817281628152814,
  0x2854331e284d284c284b331d284a2849331c331b284828472846284528442843284228412840283f283e283d283c283b283a28392838283728362835,
  0x286b286a2869286828672866286533252864286328623324286133232860285f285e285d3322285c3321285b3320331f285a28592858285728562855,
  0x28e628e528e428e328e228e128e028df28de28dd28dc28db28da332628d928d828d728d628d528d428d328d22873287228712870286f286e286d286c,
  0x29082907290629052904290329022901290028ff28fe332828fd28fc28fb332728fa28f928f828f728f628f528f428f328f228eb28ea28e928e828e7,
  0x2929292829272926292529242923292229212920291f291e291d291c291b291a2919332b291829172916291529142913332a29123329290b290a2909,
  0x3332299e33313330299d299c299b299a299929982997332f299629952994332e29932992332d332c2991299029312930292f292e292d292c292b292a,
  0x29bf333529be29bd29bc29bb29ba29b929b829b729b629b529b429b329b229b129b029a929a829a729a6333429a529a429a329a229a129a03333299f,
  0x29e229e129e029df29de29dd29dc29db29da29d929d829d729d629d529d429d329d229d129d029c929c829c729c6339629c529c429c329c229c129c0,
  0x2a572a562a552a54339d2a532a522a51339c339b2a502a4f2a4e29ef29ee29ed29ec339a29eb29ea29e9339929e829e73398339729e629e529e429e3,
  0x2a762a752a742a732a722a7133a22a702a6f2a6e2a6733a12a662a652a642a632a622a612a6033a02a5f2a5e2a5d339f2a5c2a5b2a5a339e2a592a58,
  0x2a9033ac2a8f2a8e2a872a862a852a842a832a8233ab2a8133aa33a92a802a7f2a7e2a7d2a7c33a82a7b33a733a62a7a2a7933a52a782a7733a433a3,
  0x2aa82aa733b233b12aa62aa52aa42aa32aa22aa12aa02a9f2a9e2a9d33b033af2a9c2a9b2a9a2a992a982a972a9633ae2a952a942a9333ad2a922a91,
  0x2b1a33bc2b1933bb33ba33b92b182b172b162b152b142b1333b82b1233b72b1133b633b52b102b0f2b0e2b0d2b0c2aad2aac33b42aab2aaa2aa933b3,
  0x2b332b322b3133c72b302b2f33c633c52b2e2b2d33c42b2c2b252b2433c333c233c12b2333c033bf2b222b212b202b1f2b1e33be2b1d33bd2b1c2b1b,
  0x2b4f2b4e2b4d2b4c2b452b442b432b4233cf33ce2b412b402b3f2b3e2b3d2b3c33cd33cc33cb2b3b33ca33c92b3a2b392b382b372b362b352b3433c8,
  0x2bcb2bca2b6b2b6a2b692b682b672b662b652b642b632b622b612b602b5f2b5e2b5d2b5c2b5b2b5a2b592b582b572b562b552b542b532b522b512b50,
  0x2beb2bea2be32be22be133d32be02bdf2bde33d22bdd2bdc33d133d02bdb2bda2bd92bd82bd72bd62bd52bd42bd32bd22bd12bd02bcf2bce2bcd2bcc,
  0x2c002bff2bfe2bfd2bfc2bfb2bfa33dc2bf92bf82bf733db2bf62bf533da33d92bf42bf32bf22bf12bf02bef33d833d733d62bee33d533d42bed2bec,
  0x33e533e42c1b2c1a2c192c182c172c162c1533e32c142c132c1233e22c112c102c0f33e12c0e2c0d2c0c2c0b2c0a2c0333e02c0233df2c0133de33dd,
  0x33eb2c9133ea2c902c8f2c8e2c8d2c8c2c8b2c8a2c8933e92c882c292c282c272c262c252c2433e82c232c222c212c202c1f2c1e33e733e62c1d2c1c,
  0x33f32cad33f22cac33f133f02cab2caa2ca92ca82ca12ca02c9f33ef2c9e2c9d2c9c33ee2c9b2c9a33ed33ec2c992c982c972c962c952c942c932c92,
  0x2ccf2cce34552ccd2ccc2ccb2cca2cc92cc82cc12cc02cbf2cbe2cbd2cbc2cbb2cba2cb92cb82cb72cb62cb52cb434542cb32cb22cb12cb02caf2cae,
  0x2d4b2d4a2d492d482d472d462ce72ce62ce52ce42ce32ce22ce12ce02cdf2cde2cdd2cdc2cdb2cda2cd92cd82cd72cd62cd52cd42cd32cd22cd12cd0,
  0x2d6d2d6c2d6b2d6a2d692d682d672d662d5f2d5e2d5d2d5c2d5b2d5a2d592d582d572d562d552d542d532d522d5134572d502d4f2d4e34562d4d2d4c,
  0x345e345d2d8a2d892d882d872d862d7f2d7e2d7d345c2d7c345b2d7b2d7a2d792d782d772d762d752d74345a2d732d722d7134592d702d6f2d6e3458,
  0x2d9f2d9e2d9d34672d9c2d9b2d9a2d992d982d9734662d9634652d95346434632d942d932d922d912d9034622d8f346134602d8e2d8d345f2d8c2d8b,
  0x2e1a2e192e182e172e162e152e142e132e122e112e102e0f34682e0e2e0d2e0c2e0b2e0a2e092e082e072e062e052e042da52da42da32da22da12da0,
  0x2e3c2e3b2e3a346a2e392e382e3734692e362e352e342e332e322e312e302e2f2e2e2e2d2e2c2e2b2e2a2e292e282e272e262e252e242e1d2e1c2e1b,
  0x2e5a34702e592e582e57346f2e562e552e54346e2e532e522e512e502e4f2e4e2e4d2e4c346d2e4b2e4a346c2e492e482e472e462e452e442e3d346b,
  0x2ed02ecf2ece34762ecd2ecc2ecb34752eca2ec92ec834742ec72ec62ec52ec42ec32ec234732e6334722e622e6134712e602e5f2e5e2e5d2e5c2e5b,
  0x2ef12ef02eef2eee2eed2eec2eeb2eea2ee92ee82ee72ee62ee52ee42ee32ee22edb2eda2ed92ed82ed72ed634792ed5347834772ed42ed32ed22ed1,
  0x2f112f102f0f2f0e2f0d2f0c2f0b347d2f0a2f092f08347c2f072f06347b347a2f052f042f032f022efb2efa2ef92ef82ef72ef62ef52ef42ef32ef2,
  0x348834872f822f8134862f802f212f202f1f34852f1e2f1d2f1c34842f1b2f1a348334822f192f182f172f162f152f1434812f1334802f12347f347e,
  0x34912f973490348f2f962f952f942f932f922f912f90348e2f8f2f8e2f8d348d2f8c2f8b348c348b2f8a2f892f882f872f862f85348a2f8434892f83,
  0x34952fb72fb62fb52fb42fb32fb22fb12fb02faf2fae2fad2fac2fab2faa2fa92fa82fa72fa62fa52fa434942fa32fa22fa12fa02f992f9834933492,
  0x2fdb2fda2fd92fd82fd72fd62fd52fd42fd32fd22fd12fd02fcf2fce2fcd2fcc2fcb2fca2fc92fc82fc72fc62fc52fc42fc32fc22fc12fc02fb92fb8,
  0x304e304d304c304b349e304a349d3049349c349b30483047304630453044349a304334993042304130403498303f303e349734962fdf2fde2fdd2fdc,
  0x306a3069306830673066306534a6306434a5306334a434a3306230613060305f305e3057305634a230553054305334a13052305134a0349f3050304f,
  0x308434b03083308230813080307f307e34af34ae34ad307734ac34ab307630753074307330723071307034aa306f306e306d34a9306c306b34a834a7,
  0x309d309c35153514309b309a30993098309730963095309430933092351330913090308f308e308d308c308b308a351230893088308734b130863085,
  0x310e3520310d310c351f351e310b310a351d310931083107351c3106351b3105351a351931043103351831023101310030ff351730fe30fd30fc3516,
  0x312c312b312a352631293128352535243127312631253124312331223523312135223120311f311e311d311c3115311431133112311135213110310f,
  0x314a352c314931483147352b31463145352a352931443143314231413140313f3528313e3527313d313c313531343133313231313130312f312e312d,
  0x31c031bf31be353231bd31bc31bb353131ba315b315a3530315931583157315631553154352f3153352e3152352d31513150314f314e314d314c314b,
  0x353931dd31dc31db31da353831d331d231d1353731d031cf3536353531ce31cd31cc31cb31ca31c931c831c7353431c6353331c531c431c331c231c1,
  0x31fb31fa31f331f231f131f031ef353f31ee31ed31ec353e31eb31ea31e9353d31e831e731e631e531e431e3353c31e2353b31e131e0353a31df31de,
  0x3213321232113210320f320e320d320c320b3545320a3209320835443207320635433542320532043203320232013200354131ff31fe31fd31fc3540,
  0x354d3287354c354b3286328532843283328232813280354a327f327e327d3549327c327b35483547327a327932783219321832173546321632153214,
  0x355532a3355432a232a1355332a0329f329e329d329c329b329a355232993298329135513290328f3550354f328e328d328c328b328a3289354e3288,
  0x32bc32bb356032ba355f32b9355e355d32b832b132b032af32ae32ad355c355b355a355932ac355832ab32aa3557355632a932a832a732a632a532a4,
  0x32d332d232d132d0356732cf32ce32cd3566356532cc32cb32ca32c932c832c732c6356432c532c432c3356332c232c132c0356232bf32be356132bd,
  0x334733463345334433433342356f3341356e3340356d356c333f333e333d333c333b333a3339356b333833373336356a32d732d63569356832d532d4,
  0x3c0c3c0a3c093c083c073c053c043c033c023c013bff3bfe3bfd3bfc3bfb3bfa3bf73bf43bf33b3e3b313b193b033a9e3992390f38f637923781377b,
  0x3cac3cab3caa3ca83ca73ca63ca53ca43ca33ca13ca03c9f3c9b3c8f3c8a3c883c873c863c853c843c803c7f3c1d3c1c3c1b3c193c153c113c0f3c0e,
  0x3cd53cd43cd23cd13cd03ccf3cce3ccd3cc83cc73cc63cc53cc43cc33cc23cc13cbf3cbe3cbc3cbb3cb73cb63cb43cb33cb23cb13cb03caf3cae3cad,
  0x4ab04aa94aa84aa549e249da497047ec47ac4732466b4664463645c345c144fb44dc44ac43ee436f43504077405e3fa23f8d3ec53ec23ebc3e553e3f,
  0x4b914b8e4b8b4b874b7f4b7c4b7b4b794b714b6d4b6c4b684b664b654b644b624b5c4b594b564af54af34af24af14acd4ac94ac74ac54abb4ab34ab2,
  0x4c424c404c3e4c3a4c394c344c324c234c204c1f4c1d4c1c4c194c144bae4bac4bab4baa4ba74ba64ba44ba14ba04b9f4b9d4b9b4b9a4b994b964b94,
  0x4f264f254f154f144f124f0f4eab4ea94ea44ea14e924e6e4de64dbb4d9b4d964d2f4d2c4d2a4d284d224d214d194d184c6a4c594c574c524c464c43,
  0x500750064ffe4ff34ff24fef4fee4fea4fe94fe34fe14fde4fdb4fda4fd94fd84fd34fd04fcf4f434f3d4f3c4f3b4f3a4f374f324f314f2d4f2c4f28,
  0x199d199c5bb25a735a2f5a2e590158ec5826581b580b578b5789560755c0550c5497545a518050d5508a5089508850235021502050115010500d500a,
  0x19bb19ba19b919b819b719b619b519b419b319b219b119b019af19ae19ad19ac19ab19aa19a919a819a719a619a519a419a319a219a119a0199f199e,
  0x19d919d8182b19d619d519d419d319d219d119d019cf19ce19cd19cc19cb19ca19c919c819c719c619c519c419c319c219c119c019bf19be19bd19bc,
  0x19f719f619f519f419f319f219f119f019ef19ee19ed19ec19eb19ea19e919e819e719e619e519e419e319e219e119e019df19de19dd19dc19db19da,
  0x19d7184c19f9187d184b184a18e319f8]

/-- `index_pointer_euc_kr_1` (lib/whatwg/encoding/indexes_pointer.cpp:9), 17048 entries. -/
def ptr1EucKr : Table := ⟨16, 17048, ptr1EucKrData⟩

end Verif.Model.Tables
