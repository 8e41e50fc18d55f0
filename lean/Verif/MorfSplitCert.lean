import Verif.MorfFe
/-!
# States of the split automaton

The states that the automaton of `MorfSplit` reaches, with their successors; the kernel checks them.
-/

namespace Jbo.Morf
set_option maxRecDepth 100000

def splitStates0 : List Nat := [
  0x5002001000600000100000000000000,
  0x1800b005002400000000000000000000000000000008003801c00000600000001200001001,
  0x4000000000000000000000000000000000000000000000f007003800000d00000001200001802,
  0x1500a800002601300a0050026000000000002400000880001200002003,
  0x1500a800002601300b8058026000000000002400000880001200002804,
  0x1800000480001200003005,
  0x1f00f000003401d00e006c034000000000003200000c00003401c02006,
  0x1f00f000003401d0108080034000000000003200000c00003402002807,
  0x18024012008c00000000000000000000000000000008003801c00002200000001200004808,
  0x18024012009000000000000000000000000000000027013009800002500000001200005009,
  0x1802401200900000000000000000000000000000002901400a00000250000000120000580a,
  0x1800c00600300000000000000000000000000000000f007003800002a0000000120000600b,
  0x560000000000120000680c,
  0x30018000005c02e01780bc05c000000000005a0000160000240380200d,
  0x30018000005c02e01900c405c000000000005a0000160000240380280d,
  0x4000000000000000000000000000000000000000000000000000000000000000000120000780e,
  0x1803701b80d80000000000000000000000000000003501a00d00000330000000120000800f,
  0xe8018000000000007003801c00e007003901c00e0070000000000000002a00000001200008810,
  0x1500a800002a01501e80f402a000000000007800001d80001a00009011,
  0x1500a800002a01501e80f402a000000000007800001f00001a00009812,
  0x1500a800002a01500a805402a000000000007800001f80001a0000700d,
  0x1500a800002a015021010402a000000000007800002000001a0000a013,
  0x1500a800002a01501e80f402a000000000007800002000001a0000a814,
  0x8c04502281100000000000000000000000000000003501a00d00000430000000340400800f,
  0x12808c000000000009004802401200900490240120090000000000000004700000003404408810,
  0x1f027800003e04f027013403e000000000009800002580003c05809015,
  0x1f029000003e052027014403e000000000009800002800003c05c09816,
  0x1f027800003e04f027013403e000000000009800002800003c06009817,
  0x1f029000003e052027014403e000000000009800002580003c06409018,
  0x1f029000003e05200f814803e000000000009800002980003c06807019,
  0x1f027800003e04f00f813c03e000000000009800002980003c06c0701a,
  0x1f029000003e05202b015403e000000000009800002a00003c0700a01b,
  0x1f027800003e04f027013403e000000000009800002a00003c0740a81c,
  0x180000118000120000f01d,
  0x1800c006016000000000000000000000000000000008003801c0000570000000120000f81e,
  0x1800c00600300000000000000000000000000000002901400a000002a0000000120001001f,
  0x1800001200001200010820,
  0x1f00f000003401d00e006c03400000000000b200000c00003408802021,
  0x1f00f000003401d010808003400000000000b200000c00003408c02822,
  0x5f02f00000b405d02e016c0b4000000000005a00001600002409002023,
  0x5f02f00000b405d03081800b4000000000005a00001600002409002823,
  0x1800000600001200012824,
  0x1200013025,
  0xce066033019400000000000000000000000000000064031818c0000620000000240300800b,
  0x1ac0ce00000000000d206903481a40d206a03481a40d2000000000000006800000002409c08826,
  0x30018000006003003701b806000000000000da00003600002c0380900d,
  0x30018000006003003701b806000000000000da00003780002c0380980d,
  0x30018000006003001800c006000000000000da00003800002c0380700d,
  0x30018000006003003981c806000000000000da00003880002c0380a00d,
  0x30018000006003003701b806000000000000da00003880002c0380a80d,
  0x1800003a00001200014027,
  0x7b03d00000ec07903c01dc0ec00000000000ea00000c0000340a402028,
  0x7b03d00000ec07903e81f00ec00000000000ea00000c0000340a802829,
  0x1800c00601600000000000000000000000000000008003f81f80000570000000120001582a,
  0x1800c006003000000000000000000000000000000083041020400002a0000000120001602b,
  0x1500a800002a01500a805402a000000000010800001f80001a0001682c,
  0x2a01500a800002a01500a805402a000000000010800001f80001a0001702d,
  0xe8018000000000002a01500a805402a08500a805402a000000000000002a00000001200013826,
  0x7e03f01f822000000000000000000000000000000087043821c00008600000001a0001782e,
  0xf007e000000000002a01500a805402a08500a805402a000000000000008900000001a00013826,
  0x1500a800002a01500a805402a000000000007800004500001a0001802f,
  0x7e03f01f82200000000000000000000000000000008b045822c00008600000001a00018830,
  0x7e03f01f80fc0000000000000000000000000000001500a805400008900000001a0000600b,
  0x7e08f04782380000000000000000000000000000008d046823400008c00000001a00019031,
  0x1500a800002a015048805402a000000000007800004800001a00019832,
  0x1500a800002a015049005402a000000000007800004800001a0001a033,
  0x8c0000498000340a014027,
  0x8c04602302540000000000000000000000000000008003f81f80000940000000340ac1582a,
  0x8c04602301180000000000000000000000000000008304102040000470000000340b01602b,
  0x8c04602301180000000000000000000000000000000f00700380000470000000340300600b,
  0x8c00002300003409412824,
  0x9804c000013009804c0260130000000000012e00004b00003c0b41682c,
  0x13009804c000013009804c0260130000000000012e00004b00003c0b81702d,
  0x12808c000000000013009804c026013009904c0260130000000000000004700000003409c13826,
  0x12c09d04e82700000000000000000000000000000009b04d826c00009a00000003c0d417834,
  0x13012c000000000013009804c026013009904c0260130000000000000009e00000003c09c13826,
  0x1f00f000003e01e00f807803e000000000009800004f80003c0d818035,
  0x1f027800003e04f00f813c03e000000000009800004f80003c0dc18036,
  0x1f00f000003e01e00f807803e000000000009800002980003c0e007037,
  0x12c09d04e8270000000000000000000000000000000a0050028000009a00000003c0e418838,
  0xa104c00001420980508260142000000000009800004f80003c0e818039,
  0xa104c00001420980508260142000000000009800002980003c0ec0703a,
  0x12c09d04e82740000000000000000000000000000004f027813c0000a200000003c0f00603b,
  0x12c0a60530294000000000000000000000000000000a405202900000a300000003c0f41903c,
  0xa104c00001420980540260142000000000009800005380003c0f81983d,
  0x1f027800003e04f054813c03e000000000009800005380003c0fc1a03e,
  0x1800002c0000120002003f,
  0x1800c0060160000000000000000000000000000000ab05502a800005700000001200020840,
  0x12808c00000000001580ac05602b01580ad05602b0158000000000000004700000003409c08826,
  0x5f05880000be0b105802bc0be00000000000da00005700002c06c0901a,
  0x5f05a00000be0b405802cc0be00000000000da00005900002c06809819,
  0x5f05880000be0b105802bc0be00000000000da00005900002c06c0981a,
  0x5f05a00000be0b405802cc0be00000000000da00005700002c06809019,
  0x5f05a00000be0b402f82d00be00000000000da00005a80002c06807019,
  0x5f05880000be0b102f82c40be00000000000da00005a80002c06c0701a,
  0x5f05a00000be0b405c02dc0be00000000000da00005b00002c0680a019,
  0x5f05880000be0b105802bc0be00000000000da00005b00002c06c0a81a,
  0xce00005c80002409414024,
  0xc106000001780bf05f02f4178000000000017600005d0000040a40200d,
  0xc106000001780bf0618308178000000000017600005d0000040a80280d,
  0xce0670338320000000000000000000000000000000c706303140000c40000000240301580b,
  0xce067033819c000000000000000000000000000000cb06503240000680000000240301600b,
  0xce067033819c000000000000000000000000000000cd06603300000680000000240300600b,
  0xce00003380002409412824,
  0x30018000006003001800c0060000000000019c00003800002c0381680d,
  0x60030018000006003001800c0060000000000019c00003800002c10817041,
  0x1ac0ce000000000006003001800c00600cf01800c0060000000000000006800000002409c13826,
  0xe00700380348000000000000000000000000000000d106883440000d000000002c0301780b,
  0x1b40e0000000000006003001800c00600cf01800c006000000000000000d300000002c09c13826,
  0x30018000006003001800c006000000000000da00006a00002c0381800d,
  0xe00700380348000000000000000000000000000000d506a83540000d000000002c0301880b,
  0xe007003801c00000000000000000000000000000003001800c00000d300000002c0300600b,
  0xe00d906c8360000000000000000000000000000000d706b835c0000d600000002c0301900b,
  0x30018000006003006d80c006000000000000da00006d00002c0381980d,
  0x30018000006003006e00c006000000000000da00006d00002c0381a00d,
  0x1800c0060160000000000000000000000000000000df06f037400005700000001200021842,
  0x12808c000000000009004802403880900e10700380090000000000000004700000003411008843,
  0xea07480001ca0e807383981ca00000000001c800007180003c11409044,
  0xe507700001ca0ee07683b01ca00000000001c800007580003c11809845,
  0xea07480001ca0e807683bc1ca00000000001c800007580003c11c09846,
  0xe507700001ca0ee07383c01ca00000000001c800007180003c12009047,
  0xf207700001e40ee07903b81e4000000000009800007880003c12407048,
  0xf307480001e40e807903a01e4000000000009800007880003c12807049,
  0xe507700001ca0ee07b03d41ca00000000001c800007a00003c12c0a04a,
  0xea07480001ca0e807683bc1ca00000000001c800007a00003c1300a84b,
  0xf203d00001f60fa07c83e01ee000000000003200000c0000341340204c,
  0xf203d00002000ff07f03f41f8000000000003200000c0000341380204d,
  0xf203d00002000ff0810404200000000000003200000c00003413c0284e,
  0x10808380002061060828410206000000000005a0000160000241400204f,
  0x108083800021a10c0858428212000000000005a00001600002414402050,
  0x108083800021a10c087843821a000000000005a00001600002414802851,
  0xf007e000000000007003801c00e007003901c00e0070000000000000008900000001a00008810,
  0x2a01500a800002a01500a805402a000000000007800001f80001a00021041,
  0x7e00004400001a00029852,
  0x1500a80002221110888444222000000000022000001f80001a0002a053,
  0x7e03f01f80fc00000000000000000000000000000112089044800008900000001a0002a854,
  0x7e00001f80001a00012824,
  0x7e03f01f80fc00000000000000000000000000000113089844c00008900000001a0002b055,
  0x1500a800022211108a8454222000000000022000008a00001a0002b856,
  0x7e00008b00001a0002c057,
  0x11e08e800023211c08d8468232000000000023000008b80001a0002c858,
  0x7e121090848400000000000000000000000000000120090048000011f00000001a0002d059,
  0x7e121090848400000000000000000000000000000122091048800011f00000001a0002d85a,
  0x7e08f047823c00000000000000000000000000000124092049000012300000001a0002e05b,
  0x1500a800002a015049005402a000000000007800001f80001a0002e85c,
  0x1500a800002a01500a805402a000000000007800009280001a0002f05d,
  0x8c0460230254000000000000000000000000000000df06f037400009400000003410c21842,
  0x8c00004a8000341002003f,
  0x8c0460230254000000000000000000000000000000ab05502a800009400000003410420840,
  0x12c09604b02580000000000000000000000000000009804c026000009e00000003c0300600b,
  0x13012c000000000009004802401200900490240120090000000000000009e00000003c04408810,
  0x9804c000013009804c0260130000000000009800004b00003c0380700d,
  0x13009804c000013009804c0260130000000000009800004b00003c10821041,
  0x12c00009300003c17c2985e,
  0x1f00f000025012909404a4250000000000024e00002980003c1802a05f,
  0x12c12c09604b00000000000000000000000000000012b09584ac00012a00000003c1842a860,
  0x12c12c09604b00000000000000000000000000000004f027813c00012a00000003c18806061,
  0x12c00004b00003c09412824,
  0x12c09d04e82740000000000000000000000000000012d09684b40000a200000003c18c2b062,
  0x1f00f000025012909804bc250000000000024e00009700003c1902b863,
  0x1f027800003e04f00f813c03e000000000009800004b00003c19407064,
  0x12c00009600003c19812865,
  0x12c00009880003c19c2c066,
  0x13909c000026813709b04d4268000000000026600009900003c1a02c867,
  0x12c13c09e04f00000000000000000000000000000013b09d84ec00013a00000003c1a42d068,
  0x12c13c09e04f00000000000000000000000000000013d09e84f400013a00000003c1a82d869,
  0x12c0a605302980000000000000000000000000000013f09f84fc00013e00000003c1ac2e06a,
  0x1f027800003e04f054813c03e000000000009800004b00003c1b02e86b,
  0x1f027800003e04f00f813c03e00000000000980000a000003c1b42f06c,
  0x9804c00002821410a10508282000000000003200000c00003401002003,
  0x9804c00002821410a2050c282000000000003200000c00003401402804,
  0x9804c000013009804c0260130000000000028a00004b00003c0381680d,
  0x13009804c000013009804c0260130000000000028a00004b00003c10817041,
  0xe01490a48520000000000000000000000000000001470a3851c00014600000002c0f01783b,
  0x5f02f00000be05e02f81780be00000000000da0000a500002c0e018037,
  0x5f05880000be0b102f82c40be00000000000da0000a500002c06c1801a,
  0x5f02f00000be05e02f81780be00000000000da00005a80002c0e007037,
  0xe01490a485200000000000000000000000000000014b0a5852c00014600000002c0f01883b,
  0x14c01800002980300a600c029800000000000da0000a500002c0ec1803a,
  0x14c01800002980300a600c029800000000000da00005a80002c0ec0703a,
  0xe01490a48524000000000000000000000000000000b105882c400014d00000002c0f00603b,
  0xe01510a885400000000000000000000000000000014f0a7853c00014e00000002c0f01903b,
  0x14c01800002980300a980c029800000000000da0000a900002c0ec1983a,
  0x5f05880000be0b10aa02c40be00000000000da0000a900002c06c1a01a,
  0xce0670338320000000000000000000000000000001570ab05540000c40000000240302180b,
  0x2b615a0ad056400000000000000000000000000000064031818c0001580000000040400800b,
  0x5842b600000000002ba15d0ae85802ba15f0af05782ba000000000000015c00000000411008826,
  0x1690b400002c81670b305942c800000000002c60000b100000c1140900d,
  0x1640b680002c816d0b605ac2c800000000002c60000b500000c1180980d,
  0x1690b400002c81670b605b82c800000000002c60000b500000c11c0980d,
  0x1640b680002c816d0b305bc2c800000000002c60000b100000c1200900d,
  0x1720b680002e416d0b905b42e400000000002e20000b800000c1240700d,
  0x1730b400002e41670b9059c2e400000000002e20000b800000c1280700d,
  0x1640b680002c816d0bb05d42c800000000002c60000ba00000c12c0a00d,
  0x1690b400002c81670b605b82c800000000002c60000ba00000c1300a80d,
  0xce00006400002409420024,
  0x17206000002f817b0bd05e42f000000000002ee00005d0000041340200d,
  0x17206000003021800bf85f82fa00000000002ee00005d0000041380200d,
  0x17206000003021800c1860830200000000002ee00005d00000413c0280d,
  0xce0670338320000000000000000000000000000001850c206100000c40000000240302080b,
  0x172060000031018b0c50624310000000000030e0000c30000041400200d,
  0x172060000032018f0c70634318000000000030e0000c30000041440200d,
  0x172060000032018f0c90644320000000000030e0000c30000041480280d,
  0x1950ca80003261930ca0650326000000000030e0000c30000040380200d,
  0x1950ca80003261930cb8658326000000000030e0000c30000040380280d,
  0x1b40e000000000000d206903481a40d206a03481a40d200000000000000d300000002c09c08826,
  0x60030018000006003001800c006000000000000da00003800002c10821041,
  0xe000006900002c09429824,
  0x3001800003321990cc8664332000000000033000003800002c0382a00d,
  0xe007003801c00000000000000000000000000000019a0cd06680000d300000002c0302a80b,
  0xe000003800002c09412824,
  0xe007003801c00000000000000000000000000000019b0cd866c0000d300000002c0302b00b,
  0x3001800003321990ce867433200000000003300000ce00002c0382b80d,
  0xe00000cf00002c0942c024,
  0x1a60d280003421a40d1868834200000000003400000cf80002c0382c80d,
  0xe01a90d486a4000000000000000000000000000001a80d406a00001a700000002c0302d00b,
  0xe01a90d486a4000000000000000000000000000001aa0d506a80001a700000002c0302d80b,
  0xe00d906c8364000000000000000000000000000001ac0d606b00001ab00000002c0302e00b,
  0x30018000006003006e00c006000000000000da00003800002c0382e80d,
  0x30018000006003001800c006000000000000da0000d680002c0382f00d,
  0xf203d00001f60fa0d786b81ee000000000003200000c0000341b80206d,
  0xf203d00002000ff0d886c01f8000000000003200000c0000341bc0206e,
  0xf203d00002000ff0d986c8200000000000003200000c0000341c00286f,
  0x9804c00001300980da86d4130000000000012e0000da00003c1c416870,
  0x36c09804c000013009804c0260130000000000012e00004b00003c1c817071,
  0x9804c00001300980dc06e0130000000000012e0000db80003c1cc16872,
  0x12c1bc0de06ec000000000000000000000000000001ba0dd06e80001b900000003c1d017873,
  0x13012c000000000037a1bd0df86f437a1be0de86f437a000000000000009e00000003c1d413874,
  0x1c10e000001e40e807903a01e4000000000009800007880003c1d807075,
  0xf203d00001e407a07901e81e400000000000980000e100003c1dc18076,
  0x1c10e000001e40e807903a01e400000000000980000e100003c1e018077,
  0xf203d00001e407a07901e81e4000000000009800007880003c1e407078,
  0x1c50e3000038a1c60e2871838a00000000003880000e180003c1e807079,
  0x1c90e4000038a1c70e2871c38a00000000003880000e180003c1ec0707a,
  0x12c1bc0de072c000000000000000000000000000001ca0e507280001b900000003c1f01887b,
  0x1cd04c000039a0980e6826039a00000000000980000e600003c1f41807c,
  0x1c10e000001e40e807903a01e400000000000980000e600003c1f81807d,
  0x1cd04c000039a0980e6826039a000000000009800007880003c1fc0707e,
  0xf203d00001e407a07901e81e400000000000980000e600003c2001807f,
  0x1cd04c000039a0980e6826039a00000000000980000e100003c20418080,
  0x12c1cf0e7873c000000000000000000000000000000e807403a00001ce00000003c20806081,
  0xf207400001e40e807903a01e4000000000009800007880003c20c07082,
  0x1c50e3800038a1c70e2871c38a00000000003880000e180003c21007083,
  0x12c1d30e98748000000000000000000000000000001d10e887440001d000000003c21419084,
  0x1cd04c000039a0980ea826039a00000000000980000ea00003c21819885,
  0x1c10e000001e40e80eb03a01e400000000000980000ea00003c21c1a086,
  0xf207400001e40e80ec87601e400000000000980000eb80003c22009087,
  0xf207700001e40ee0ec876c1e400000000000980000ed00003c22409888,
  0xf207400001e40e80ec87601e400000000000980000ed00003c22809889,
  0xf207700001e40ee0ef07741e400000000000980000ee00003c22c0908a,
  0xf207400001e40e80ef077c1e400000000000980000ee00003c2300908b,
  0xf207400001e40e80f107841e400000000000980000f000003c2340908c,
  0xf207700001e40ee0f287901e400000000000980000f180003c2380988d,
  0xf207400001e40e80f287981e400000000000980000f180003c23c0988e,
  0xf207700001e40ee0f287901e400000000000980000f380003c2400908f,
  0xf207400001e40e80f287981e400000000000980000f380003c24409090,
  0xf207700001e40ee0f507a41e400000000000980000f400003c2480a091,
  0xf207400001e40e80f287981e400000000000980000f400003c24c0a892,
  0x1080f700002101ee0f687b021000000000000da0000f580002c25009093,
  0x1080f880002101f10f687c021000000000000da0000f780002c25409894,
  0x1080f700002101ee0f687b021000000000000da0000f780002c25809895,
  0x1080f880002101f10f687c021000000000000da0000f580002c25c09096,
  0x1080f880002101f108407c421000000000000da0000f900002c12407048,
  0x1080f700002101ee08407b821000000000000da0000f900002c20c07082,
  0x1080f700002101ee0fa87d021000000000000da0000f980002c26009097,
  0x1080f880002101f10fa87dc21000000000000da0000fb00002c26409898,
  0x1080f700002101ee0fa87d021000000000000da0000fb00002c26809899,
  0x1080f880002101f10fa87dc21000000000000da0000fc00002c12409048,
  0x1080f700002101ee0fa87d021000000000000da0000fc00002c20c09082,
  0x1080f880002101f10fd87e821000000000000da0000fc80002c2640a098,
  0x1080f700002101ee0fa87d021000000000000da0000fc80002c2680a899,
  0xf007e000000000002a01500a844802a1fc00a805402a000000000000008900000001a0004d89a,
  0x1500a800002a01501e80f402a00000000003fc0000fe80001a0004e09b,
  0x1500a800002a01501e80f402a000000000007800001d80001a0004e89c,
  0x1500a800002a01501e80f402a00000000003fc0000fe80001a0004f09d,
  0x7e20210108040000000000000000000000000000020010008000001ff00000001a0004f89e,
  0x1500a800002a01501e80f402a00000000003fc00010180001a0005009f,
  0x7e121090848400000000000000000000000000000120090048000020400000001a000508a0,
  0x7e208104081c00000000000000000000000000000206103081800020500000001a000510a1,
  0xf007e000000000002a01500a882c41220a1048824412000000000000008900000001a000518a2,
  0x211108000041a122107883841a00000000003fc00010600001a000520a3,
  0x20d10a000041a214107884c41a00000000003fc00010900001a000528a4,
  0x211108000041a122107883841a00000000003fc00010900001a000530a5,
  0x20d10a000041a214107884c41a00000000003fc00010600001a000538a6,
  0x20d10a000041a214106885041a000000000007800010a80001a000540a7,
  0x211108000041a122106848841a000000000007800010a80001a000548a8,
  0x7e00009080001a000550a9,
  0x20d08e800041a11d107886041a000000000042e00010b00001a000558aa,
  0x7e121090848400000000000000000000000000000122091048800020400000001a000560ab,
  0x20d08e800041a11d106847441a000000000007800010a80001a000568ac,
  0x7e00009080001a000570ad,
  0x20d08e800041a11d107886041a00000000003fc00010600001a000578ae,
  0x7e08f047823c00000000000000000000000000000122091048800012300000001a000580af,
  0x12c12c09604b00000000000000000000000000000012b09584ac00021900000003c2c42a8b0,
  0x13012c000000000013009804c086c13021a04c0260130000000000000009e00000003c26c4d89a,
  0x1f027800003e04f027013403e000000000043a00010e00003c2c84e0b1,
  0x1f029000003e052027014403e000000000043a00010e00003c2cc4e0b2,
  0x12c00009600003c2d0128b3,
  0x1f00f000003e01e027087803e000000000009800002580003c2d44e8b4,
  0x12c12c09604b00000000000000000000000000000004f027813c00021900000003c2d8060b5,
  0x1f00f000003e01e027087803e000000000043a00010e00003c2dc4f0b6,
  0x12c222111088400000000000000000000000000000220110088000021f00000003c2e04f8b7,
  0x1f029000003e052027014403e000000000043a00011180003c2e4500b8,
  0x1f027800003e04f027013403e000000000043a00011180003c2e8500b9,
  0x12c13c09e04f00000000000000000000000000000013b09d84ec00022400000003c2ec508ba,
  0x12c228114089c00000000000000000000000000000226113089800022500000003c2f0510bb,
  0x13012c000000000013009804c08ac45222a11488a4452000000000000009e00000003c28c518a2,
  0x231118000045a13d11788b845a000000000043a00011600003c2f4520bc,
  0x22d11a000045a23411788cc45a000000000043a00011900003c2f8528bd,
  0x231118000045a13d11788b845a000000000043a00011900003c2fc530be,
  0x22d11a000045a23411788cc45a000000000043a00011600003c300538bf,
  0x22d11a000045a23411688d045a000000000009800011a80003c304540c0,
  0x231118000045a13d11684f445a000000000009800011a80003c308548c1,
  0x12c00009e00003c30c550c2,
  0x22d09c000045a13811788e045a000000000046e00011b00003c310558c3,
  0x12c13c09e04f00000000000000000000000000000013d09e84f400022400000003c314560c4,
  0x22d09c000045a13811684e045a000000000009800011a80003c318568c5,
  0x12c00009e00003c31c570c6,
  0x22d09c000045a13811788e045a000000000043a00011600003c320578c7,
  0x12c0a605302980000000000000000000000000000013d09e84f400013e00000003c324580c8,
  0x9804c000013009811d08e8130000000000009800011c80003c04809011,
  0x9804c000013009811d08e8130000000000009800011d80003c04c09812,
  0x9804c000013009811f08f4130000000000009800011e00003c0500a013,
  0x9804c000013009811d08e8130000000000009800011e00003c0540a814,
  0x13012c00000000001580ac05602b01580ad05602b0158000000000000009e00000003c09c08826,
  0xe000011f80002c19829865,
  0x5f02f00004802411200904480000000000033000005a80002c0e02a037,
  0xe0244122091000000000000000000000000000000243121890c00024200000002c1882a861,
  0xe02441220910000000000000000000000000000000b105882c400024200000002c18806061,
  0xe01490a4852400000000000000000000000000000245122891400014d00000002c0f02b03b,
  0x5f02f0000480241124091c480000000000033000012300002c0e02b837,
  0x5f05880000be0b102f82c40be00000000000da00003800002c19407064,
  0xe000012200002c19812865,
  0xe000012480002c1982c065,
  0x250127800049624e1268930496000000000034000012500002c0e02c837,
  0xe0253129894c00000000000000000000000000000252129094800025100000002c1882d061,
  0xe0253129894c0000000000000000000000000000025412a095000025100000002c1882d861,
  0xe01510a885440000000000000000000000000000025612b095800025500000002c0f02e03b,
  0x5f05880000be0b10aa02c40be00000000000da00003800002c1942e864,
  0x5f05880000be0b102f82c40be00000000000da00012b80002c06c2f01a,
  0x17206000002f817b12c89602f000000000002ee00005d0000041b80200d,
  0x172060000030218012d89682fa00000000002ee00005d0000041bc0200d,
  0x172060000030218012e897030200000000002ee00005d0000041c00280d,
  0x2b600012f0000040a014024,
  0x2b615b0ad8980000000000000000000000000000000c7063031400025f0000000040ac1580b,
  0x2b615b0ad856c000000000000000000000000000000cb065032400015c0000000040b01600b,
  0x2b615b0ad856c000000000000000000000000000000cd066033000015c0000000040300600b,
  0x2b60000ad80000409412824,
  0x1950ca800032a1950ca865432a00000000004c400013080000c0b41680d,
  0x1950ca800032a195132099032a00000000004c400013180000c1c41680d,
  0x4ca1950ca800032a1950ca865432a00000000004c400013080000c1c817041,
  0x1950ca800032a195133899c32a00000000004c400013300000c1cc1680d,
  0x5842b6000000000032a1950ca865432a2680ca865432a000000000000015c00000000409c13826,
  0x4c226c13609ac0000000000000000000000000000026a13509a800026900000000c1d01780b,
  0x5c44c200000000004dc26e13809b84dc26f13709b84dc000000000000026d00000000c1d413826,
  0x27213880002e41670b9059c2e400000000002e20000b800000c1d80700d,
  0x17206000002e40c00b903002e400000000002e200013980000c1dc1800d,
  0x27213880002e41670b9059c2e400000000002e200013980000c1e01800d,
  0x17206000002e40c00b903002e400000000002e20000b800000c1e40700d,
  0x27513b00004ea27613a89d84ea00000000002e200013a00000c1e80700d,
  0x27913c00004ea27713a89dc4ea00000000002e200013a00000c1ec0700d,
  0x4c226c13609ec0000000000000000000000000000027a13d09e800026900000000c1f01880b,
  0x27d0ca80004fa19513e86544fa00000000002e200013e00000c1f41800d,
  0x27213880002e41670b9059c2e400000000002e200013e00000c1f81800d,
  0x27d0ca80004fa19513e86544fa00000000002e20000b800000c1fc0700d,
  0x17206000002e40c00b903002e400000000002e200013e00000c2001800d,
  0x27d0ca80004fa19513e86544fa00000000002e200013980000c2041800d,
  0x4c227f13f89fc000000000000000000000000000001670b3859c00027e00000000c2080600b,
  0x5c44c2000000000032a1950ca865432a2680ca865432a000000000000026d00000000c09c13826,
  0x1720b380002e41670b9059c2e400000000002e20000b800000c20c0700d,
  0x27513b80004ea27713a89dc4ea00000000002e200013a00000c2100700d,
  0x4c22831418a08000000000000000000000000000002811408a0400028000000000c2141900b,
  0x27d0ca80004fa19514286544fa00000000002e200014200000c2181980d,
  0x27213880002e4167143059c2e400000000002e200014200000c21c1a00d,
  0x5842b600000000002ba15d0ae85742ba2870ae85742ba000000000000015c00000000404408826,
  0x1720b380002e41671450a242e400000000002e200014400000c2200900d,
  0x1720b680002e416d1450a302e400000000002e200014580000c2240980d,
  0x1720b380002e41671450a242e400000000002e200014580000c2280980d,
  0x1720b680002e416d1478a382e400000000002e200014680000c22c0900d,
  0x1720b380002e41671478a402e400000000002e200014680000c2300900d,
  0x1720b380002e41671498a482e400000000002e200014880000c2340900d,
  0x1720b680002e416d14b0a542e400000000002e200014a00000c2380980d,
  0x1720b380002e416714b0a5c2e400000000002e200014a00000c23c0980d,
  0x1720b680002e416d14b0a542e400000000002e200014c00000c2400900d,
  0x1720b380002e416714b0a5c2e400000000002e200014c00000c2440900d,
  0x1720b680002e416d14d8a682e400000000002e200014c80000c2480a00d,
  0x1720b380002e416714b0a5c2e400000000002e200014c80000c24c0a80d,
  0x1950ca800053829c14e8a7453800000000002ee00005d0000040100200d,
  0x1950ca800053829c14f8a7853800000000002ee00005d0000040140280d,
  0x2b62a21510a8400000000000000000000000000000064031818c0002a00000000040300800b,
  0x5842b600000000005462a31518a8c5462a41518a8c546000000000000015c00000000409c08826,
  0x1720b380002e41671538a982e400000000002e200015280000c2500900d,
  0x1720b680002e416d1538aa42e400000000002e200015400000c2540980d,
  0x1720b380002e41671538a982e400000000002e200015400000c2580980d,
  0x1720b680002e416d1538aa42e400000000002e200015280000c25c0900d,
  0x1720b380002e41671560aac2e400000000002e200015500000c2600900d,
  0x1720b680002e416d1560ab82e400000000002e200015680000c2640980d,
  0x1720b380002e41671560aac2e400000000002e200015680000c2680980d,
  0x1720b680002e416d1560ab82e400000000002e200015780000c1240900d,
  0x1720b380002e41671560aac2e400000000002e200015780000c20c0900d,
  0x1720b680002e416d1590ac42e400000000002e200015800000c2640a00d,
  0x1720b380002e41671560aac2e400000000002e200015800000c2680a80d,
  0x1950ca800032a19515a0ad032a00000000002e200015980000c0380900d,
  0x1950ca800032a19515a0ad032a00000000002e200015a80000c0380980d,
  0x1950ca800032a1950ca865432a00000000002e200013080000c0380700d,
  0x1950ca800032a19515c0adc32a00000000002e200015b00000c0380a00d,
  0x1950ca800032a19515a0ad032a00000000002e200015b00000c0380a80d,
  0x1b40e0000000000006003001806680602b901800c006000000000000000d300000002c09c4d826,
  0x30018000006003003701b8060000000000057600015d00002c0384e00d,
  0x30018000006003003701b806000000000000da00003600002c0384e80d,
  0x30018000006003003701b8060000000000057600015d00002c0384f00d,
  0xe02bf15f8af8000000000000000000000000000002bd15e8af40002bc00000002c0304f80b,
  0x30018000006003003701b8060000000000057600016000002c0385000d,
  0xe01a90d486a4000000000000000000000000000001a80d406a00002c100000002c0305080b,
  0xe02c51628b10000000000000000000000000000002c31618b0c0002c200000002c0305100b,
  0x1b40e000000000000600300180b2058c2c71630b1858c00000000000000d300000002c09c51826,
  0x2ce16680005941aa1660b2c594000000000057600016480002c0385200d,
  0x2ca16880005942d11660b40594000000000057600016780002c0385280d,
  0x2ce16680005941aa1660b2c594000000000057600016780002c0385300d,
  0x2ca16880005942d11660b40594000000000057600016480002c0385380d,
  0x2ca16880005942d11650b4459400000000000da00016900002c0385400d,
  0x2ce16680005941aa16506a859400000000000da00016900002c0385480d,
  0xe00000d480002c09455024,
  0x2ca0d280005941a51660b5459400000000005a800016980002c0385580d,
  0xe01a90d486a4000000000000000000000000000001aa0d506a80002c100000002c0305600b,
  0x2ca0d280005941a5165069459400000000000da00016900002c0385680d,
  0xe00000d480002c09457024,
  0x2ca0d280005941a51660b54594000000000057600016480002c0385780d,
  0xe00d906c8364000000000000000000000000000001aa0d506a80001ab00000002c0305800b,
  0xf207700001e40ee0ec876c1e400000000000980000ed00003c328098c9,
  0xf207400001e40e80ec87601e400000000000980000ed00003c32c098ca,
  0xf207700001e40ee0f287901e400000000000980000f180003c330098cb,
  0xf207400001e40e80f287981e400000000000980000f180003c334098cc,
  0xf207700001e40ee0f507a41e400000000000980000f400003c3380a0cd,
  0xf207400001e40e80f287981e400000000000980000f400003c33c0a8ce,
  0x12c09604b0b60000000000000000000000000000002d716b8b5c0002d600000003c340060cf,
  0x9804c000013009804c0260130000000000009800016c80003c344070d0,
  0x9804c000013009804c0260130000000000009800016d00003c348070d1,
  0x12c09604b0b74000000000000000000000000000002dc16e0b700002db00000003c34c060d2,
  0x9804c000013009804c0260130000000000009800016f00003c350070d3,
  0x12c00016f80003c354298d4,
  0x2e303d00005c22e21708b885c200000000005c000007880003c3582a0d5,
  0x12c2e61730b98000000000000000000000000000002e51728b940002e400000003c35c2a8d6,
  0x12c2e61730b98000000000000000000000000000002e71738b9c0002e400000003c360060d7,
  0x9804c00001300980dc06e013000000000000980000db80003c364070d8,
  0x36c09804c00001300980dc06e013000000000000980000db80003c368210d9,
  0x5d009804c00001300980dc06e013000000000000980000db80003c36c070da,
  0x2eb17600005d62ec1758bb05d600000000005d400017480003c370070db,
  0x2eb17680005d62ed1758bb45d600000000005d400017480003c374070dc,
  0x12c1cf0e78bc0000000000000000000000000000002ef1778bbc0002ee00000003c3782b0dd,
  0x5e62f21790bc8000000000000000000000000000001c70e3871c0002f100000013c37c060de,
  0x7105e600000000005ea2f517a8bd45ea2f617a8bd45ea00000000000002f400000013c09c13826,
  0x1c50e3800038a1c70e2871c38a00000000003880000e180013c380070df,
  0x1c517b800038a2f70e28bdc38a00000000003880000e180013c384070e0,
  0x1c50e3000038a1c60e2871838a00000000003880000e180013c388070e1,
  0x2fa17d80005f42fb17d0bec5f400000000005f200017c00013c38c070e2,
  0x2fa17e00005f42fc17d0bf05f400000000005f200017c00013c390070e3,
  0xf203d00005fc3011800bfc5fc00000000005c000017e80003c3942b8e4,
  0x12c2e61730b98000000000000000000000000000003021810c080002e400000003c3982a8e5,
  0x12c1cf0e78bc0000000000000000000000000000003031818c0c0002ee00000003c39c2b0e6,
  0xf207400001e40e807903a01e4000000000009800004b00003c3a0070e7,
  0x12c00017300003c3a4128e8,
  0x12c2e61730b98000000000000000000000000000000e807403a00002e400000003c3a8060e9,
  0x12c00018200003c3ac2c0ea,
  0x30c185800060e30a1848c2060e000000000060c00018280003c3b02c8eb,
  0x12c30f1878c3c0000000000000000000000000000030e1870c3800030d00000003c3b42d0ec,
  0x12c30f1878c3c000000000000000000000000000003101880c4000030d00000003c3b82d8ed,
  0x12c31418a0c4c000000000000000000000000000003121890c4800031100000003c3bc2e0ee,
  0xf207400001e40e80eb03a01e4000000000009800004b00003c3c02e8ef,
  0xf207400001e40e807903a01e4000000000009800018a80003c3c42f0f0,
  0x12c1bc0de0c600000000000000000000000000000031718b8c5c00031600000003c3c8178f1,
  0xf203d00001e407a07901e81e4000000000009800018c80003c3cc180f2,
  0xf207400001e40e807903a01e4000000000009800018c80003c3d0180f3,
  0x12c1bc0de0c600000000000000000000000000000031a18d0c6800031600000003c3d4188f4,
  0x1cd04c000039a0980e6826039a000000000009800018c80003c3d8180f5,
  0x12c1bc0de06ec0000000000000000000000000000031c18e0c7000031b00000003c3dc178f6,
  0x1cd04c000039a0980e6826039a000000000009800018e80003c3e0180f7,
  0xf207400001e40e807903a01e4000000000009800018e80003c3e4180f8,
  0xf203d00001e407a07901e81e4000000000009800018e80003c3e8180f9,
  0x12c1bc0de06ec0000000000000000000000000000031c18e0c7000031e00000003c3ec178fa,
  0xf203d00001e407a07901e81e4000000000009800018f80003c3f0180fb,
  0xf207400001e40e807903a01e4000000000009800018f80003c3f4180fc,
  0x12c1cf0e78c88000000000000000000000000000003211908c8400032000000003c3f8188fd,
  0x1cd04c000039a0980e6826039a000000000009800019180003c3fc180fe,
  0xf207400001e40e807903a01e4000000000009800019180003c400180ff,
  0xf203d00001e407a07901e81e4000000000009800019180003c40418100,
  0x12c1cf0e78c88000000000000000000000000000003241920c9000032000000003c40817901,
  0x12c31418a0c9c000000000000000000000000000003261930c9800032500000003c40c19102,
  0x1cd04c000039a0980ea826039a000000000009800019400003c41019903,
  0xf207400001e40e80eb03a01e4000000000009800019400003c4141a104,
  0xe032c1960cac0000000000000000000000000000032a1950ca800032900000002c41817905,
  0x1080838000210107084041c21000000000000da00019680002c41c18106,
  0x1080f700002101ee08407b821000000000000da00019680002c42018107,
  0x1080838000210107084041c21000000000000da0000f900002c1e407078,
  0xe032c1960cac0000000000000000000000000000032e1970cb800032900000002c42418908,
  0x32f018000065e03019780c065e00000000000da00019680002c42818109,
  0x32f018000065e03019780c065e00000000000da0000f900002c1fc0707e,
  0xe03311988cc4000000000000000000000000000001ee0f707b800033000000002c20806081,
  0xe032c1960cac0000000000000000000000000000032a1950ca800033200000002c42c1790a,
  0x1080838000210107084041c21000000000000da00019980002c1e418078]

def splitStates1 : List Nat := [
  0x1080f700002101ee08407b821000000000000da00019980002c20c18082,
  0xe03311988cd80000000000000000000000000000033519a8cd400033400000002c4301890b,
  0x32f018000065e03019780c065e00000000000da00019980002c1fc1807e,
  0xe03311988cd80000000000000000000000000000033719b8cdc00033400000002c20817881,
  0xe033b19d8ce80000000000000000000000000000033919c8ce400033800000002c4301910b,
  0x32f018000065e03019e80c065e00000000000da00019e00002c1fc1987e,
  0x1080f700002101ee19f07b821000000000000da00019e00002c20c1a082,
  0x67e01500a800002a01500a805402a000000000007800001f80001a0008690c,
  0x7e03f01f822000000000000000000000000000000087043821c00008600000001a0008710d,
  0xf007e00000000002241121a084482243400890448224000000000000008900000001a0008790e,
  0x7e00010100001a0008810f,
  0x34400a80006843431a10d0c684000000000007800001f80001a00088910,
  0x7e03f01f80fc000000000000000000000000000003451a28d1400008900000001a00089111,
  0x7e03f01f80fc000000000000000000000000000003461a30d1800008900000001a00089912,
  0x7e03f01f8220000000000000000000000000000003471a38d1c00008600000001a0008a113,
  0x7e00009080001a0008a914,
  0x7e0001a400001a0008b115,
  0x34c08e800069434b1a50d2c694000000000069200010a80001a0008b916,
  0x7e34f1a78d3c0000000000000000000000000000034e1a70d3800034d00000001a0008c117,
  0x7e34f1a78d3c000000000000000000000000000003501a80d4000034d00000001a0008c918,
  0x1500a800002a0151a90d4802a00000000000780001a880001a0008d119,
  0x6a601500a800002a0151a90d4802a00000000000780001a880001a0008d91a,
  0x1500a800002a0151aa8d5402a00000000000780001aa00001a0008e11b,
  0x7e3591ac8d60000000000000000000000000000003571ab8d5c00035600000001a0008e91c,
  0x20d091000041a122106848841a000000000007800010a80001a0008f11d,
  0x20d08e800041a11d106847441a00000000000780001ad00001a0008f91e,
  0x20d091000041a122106848841a00000000000780001ad00001a0009011f,
  0x35d1af00006ba35e1ae8d786ba00000000006b80001ad80001a00090920,
  0x35d1af80006ba35f1ae8d7c6ba00000000006b80001ad80001a00091121,
  0x7e3591ac8d88000000000000000000000000000003611b08d8400036000000001a00091922,
  0x36300a80006c60151b180546c600000000000780001ad00001a00092123,
  0x36300a80006c60151b180546c6000000000007800010a80001a00092924,
  0x7e3591ac8d6400000000000000000000000000000122091048800036400000001a00093125,
  0x7e3591ac8d60000000000000000000000000000003571ab8d5c00035600000001a00093926,
  0xf007e000000000002a01500a8d946ca3661b28d946ca000000000000008900000001a00094127,
  0x20d10a000041a214106885041a00000000000780001ad00001a00094928,
  0x12c00009600003c4a812929,
  0x6ce09804c000013009804c0260130000000000009800004b00003c4348690c,
  0x9804c000013009811d08e8130000000000009800011c80003c2744e89c,
  0x12c09d04e82700000000000000000000000000000009b04d826c00009a00000003c4ac8712a,
  0x13012c000000000043621b1b4886c43636810d886c436000000000000009e00000003c43c8790e,
  0x1f029000003e05200f814803e000000000009800004f80003c4b01812b,
  0x12c0001b500003c4b48812c,
  0x36d00f00006d636c1b58db06d6000000000009800002980003c4b88892d,
  0x12c12c09604b00000000000000000000000000000036e1b70db800012a00000003c4bc8912e,
  0x12c12c09604b00000000000000000000000000000036f1b78dbc00012a00000003c4c08992f,
  0x12c09d04e8270000000000000000000000000000003701b80dc000009a00000003c4c48a130,
  0x12c00009e00003c4c88a931,
  0x12c0001b880003c4cc8b132,
  0x37509c00006e63741b98dd06e600000000006e400011a80003c4d08b933,
  0x12c3781bc0de0000000000000000000000000000003771bb8ddc00037600000003c4d48c134,
  0x12c3781bc0de0000000000000000000000000000003791bc8de400037600000003c4d88c935,
  0x9804c00001300981bd8dec13000000000000980001bd00003c4688d119,
  0x6f809804c00001300981bd8dec13000000000000980001bd00003c46c8d91a,
  0x9804c00001300981bf0df813000000000000980001be80003c4708e11b,
  0x12c3821c10e04000000000000000000000000000003801c00e0000037f00000003c4dc8e936,
  0x22d09e800045a13d11684f445a000000000009800011a80003c4e08f137,
  0x22d09c000045a13811684e045a00000000000980001c180003c4e48f938,
  0x22d09e800045a13d11684f445a00000000000980001c180003c4e890139,
  0x3861c3800070c3871c30e1c70c000000000070a0001c200003c4ec9093a,
  0x3861c4000070c3881c30e2070c000000000070a0001c200003c4f09113b,
  0x12c3821c10e2c0000000000000000000000000000038a1c50e2800038900000003c4f49193c,
  0x38c04c00007180981c6026071800000000000980001c180003c4f89213d,
  0x38c04c00007180981c60260718000000000009800011a80003c4fc9293e,
  0x12c3821c10e080000000000000000000000000000013d09e84f400038d00000003c5009313f,
  0x12c3821c10e04000000000000000000000000000003801c00e0000037f00000003c50493940,
  0x13012c000000000013009804c0e3871c38f1c70e3871c000000000000009e00000003c4a094127,
  0x22d11a000045a23411688d045a00000000000980001c180003c50894941,
  0x12c09604b0e48000000000000000000000000000003911c88e4400039000000003c0bc1782e,
  0x9804c000013009804c026013000000000000980001c980003c0c01802f,
  0x12c09604b0e48000000000000000000000000000003941ca0e5000039000000003c0c418830,
  0x12c3981cc0e5c000000000000000000000000000003961cb0e5800039500000003c0c819031,
  0x9804c00001300981cd026013000000000000980001cc80003c0cc19832,
  0x9804c00001300981cd826013000000000000980001cc80003c0d01a033,
  0xe0244122091000000000000000000000000000000243121890c00039c00000002c2d82a8b5,
  0x5f05880000be0b105802bc0be00000000005760001ce80002c06c4e01a,
  0x5f05a00000be0b405802cc0be00000000005760001ce80002c0684e019,
  0xe000012200002c2d0128b3,
  0x5f02f00000be05e0580e780be00000000000da00005700002c0e04e837,
  0xe02441220910000000000000000000000000000000b105882c400039c00000002c2d8060b5,
  0x5f02f00000be05e0580e780be00000000005760001ce80002c0e04f037,
  0xe03a21d10e84000000000000000000000000000003a01d00e8000039f00000002c0f04f83b,
  0x5f05a00000be0b405802cc0be00000000005760001d180002c06850019,
  0x5f05880000be0b105802bc0be00000000005760001d180002c06c5001a,
  0xe0253129894c0000000000000000000000000000025212909480003a400000002c2d8508b5,
  0xe03a81d40e9c000000000000000000000000000003a61d30e980003a500000002c0f05103b,
  0x3ae1d680007542541d60eac75400000000005760001d480002c06c5201a,
  0x3aa1d880007543b11d60ec075400000000005760001d780002c06852819,
  0x3ae1d680007542541d60eac75400000000005760001d780002c06c5301a,
  0x3aa1d880007543b11d60ec075400000000005760001d480002c06853819,
  0x3aa1d880007543b11d50ec475400000000000da0001d900002c06854019,
  0x3ae1d680007542541d5095075400000000000da0001d900002c06c5481a,
  0xe000012980002c2d0550b3,
  0x3aa127800075424f1d60ed075400000000005a80001d980002c0e055837,
  0xe0253129894c0000000000000000000000000000025412a09500003a400000002c2d8560b5,
  0x3aa127800075424f1d5093c75400000000000da0001d900002c0e056837,
  0xe000012980002c19857065,
  0x3aa127800075424f1d60ed075400000000005760001d480002c0e057837,
  0xe01510a885440000000000000000000000000000025412a095000025500000002c0f05803b,
  0x1720b680002e416d1450a302e400000000002e200014580000c3280980d,
  0x1720b380002e41671450a242e400000000002e200014580000c32c0980d,
  0x1720b680002e416d14b0a542e400000000002e200014a00000c3300980d,
  0x1720b380002e416714b0a5c2e400000000002e200014a00000c3340980d,
  0x1720b680002e416d14d8a682e400000000002e200014c80000c3380a00d,
  0x1720b380002e416714b0a5c2e400000000002e200014c80000c33c0a80d,
  0x2b615b0ad8980000000000000000000000000000001570ab055400025f00000000410c2180b,
  0x2b600013000000410020024,
  0x2b615b0ad8980000000000000000000000000000001850c2061000025f0000000041042080b,
  0x4c22611308984000000000000000000000000000001950ca865400026d00000000c0300600b,
  0x5c44c200000000002ba15d0ae85742ba2870ae85742ba000000000000026d00000000c04408826,
  0x4c22611308edc000000000000000000000000000003b61db0ed80003b500000000c3400600b,
  0x1950ca800032a1950ca865432a00000000002e20001dc00000c3440700d,
  0x1950ca800032a1950ca865432a00000000002e20001dc80000c3480700d,
  0x4c22611308ef0000000000000000000000000000003bb1dd8eec0003ba00000000c34c0600b,
  0x1950ca800032a1950ca865432a00000000002e20001de80000c3500700d,
  0x32a1950ca800032a1950ca865432a00000000002e200013080000c10821041,
  0x4c20001df00000c35429824,
  0x3c206000007803c11e00f04780000000000077e0000b800000c3582a00d,
  0x4c23c51e28f14000000000000000000000000000003c41e20f100003c300000000c35c2a80b,
  0x4c23c51e28f14000000000000000000000000000003c61e30f180003c300000000c3600600b,
  0x4c200013080000c09412824,
  0x1950ca800032a195133899c32a00000000002e200013300000c3640700d,
  0x4ca1950ca800032a195133899c32a00000000002e200013300000c36821041,
  0x1950ca800032a195133899c32a00000000002e200013300000c36c0700d,
  0x3c81e480007903c91e40f2479000000000002e20001e380000c3700700d,
  0x3c81e500007903ca1e40f2879000000000002e20001e380000c3740700d,
  0x4c227f13f8f34000000000000000000000000000003cc1e60f300003cb00000000c3782b00b,
  0x4c23cf1e78f3c0000000000000000000000000000027713b89dc0003ce00000000c37c0600b,
  0x27513b80004ea27713a89dc4ea00000000002e200013a00000c3800700d,
  0x2751e800004ea3d013a8f404ea00000000002e200013a00000c3840700d,
  0x27513b00004ea27613a89d84ea00000000002e200013a00000c3880700d,
  0x3d21e980007a43d31e90f4c7a400000000002e20001e880000c38c0700d,
  0x3d21ea00007a43d41e90f507a400000000002e20001e880000c3900700d,
  0x17206000007ac3d91ec0f5c7ac000000000077e0001ea80000c3942b80d,
  0x4c23c51e28f14000000000000000000000000000003da1ed0f680003c300000000c3982a80b,
  0x4c227f13f8f34000000000000000000000000000003db1ed8f6c0003cb00000000c39c2b00b,
  0x1720b380002e41670b9059c2e400000000002e200013080000c3a00700d,
  0x4c20001e280000c3a412824,
  0x4c23c51e28f14000000000000000000000000000001670b3859c0003c300000000c3a80600b,
  0x4c20001ee00000c3ac2c024,
  0x3e41f180007be3e21f08f807be00000000007bc0001ee80000c3b02c80d,
  0x4c23e71f38f9c000000000000000000000000000003e61f30f980003e500000000c3b42d00b,
  0x4c23e71f38f9c000000000000000000000000000003e81f40fa00003e500000000c3b82d80b,
  0x4c23ec1f60fac000000000000000000000000000003ea1f50fa80003e900000000c3bc2e00b,
  0x1720b380002e4167143059c2e400000000002e200013080000c3c02e80d,
  0x1720b380002e41670b9059c2e400000000002e20001f680000c3c42f00d,
  0x32a1950ca800032a1950ca865432a00000000004c400013080000c0b817041,
  0x4c226c1360fc0000000000000000000000000000003ef1f78fbc0003ee00000000c3c81780b,
  0x17206000002e40c00b903002e400000000002e20001f880000c3cc1800d,
  0x1720b380002e41670b9059c2e400000000002e20001f880000c3d01800d,
  0x4c226c1360fc0000000000000000000000000000003f21f90fc80003ee00000000c3d41880b,
  0x27d0ca80004fa19513e86544fa00000000002e20001f880000c3d81800d,
  0x4c226c13609ac000000000000000000000000000003f41fa0fd00003f300000000c3dc1780b,
  0x27d0ca80004fa19513e86544fa00000000002e20001fa80000c3e01800d,
  0x1720b380002e41670b9059c2e400000000002e20001fa80000c3e41800d,
  0x17206000002e40c00b903002e400000000002e20001fa80000c3e81800d,
  0x4c226c13609ac000000000000000000000000000003f41fa0fd00003f600000000c3ec1780b,
  0x17206000002e40c00b903002e400000000002e20001fb80000c3f01800d,
  0x1720b380002e41670b9059c2e400000000002e20001fb80000c3f41800d,
  0x4c227f13f8fe8000000000000000000000000000003f91fc8fe40003f800000000c3f81880b,
  0x27d0ca80004fa19513e86544fa00000000002e20001fd80000c3fc1800d,
  0x1720b380002e41670b9059c2e400000000002e20001fd80000c4001800d,
  0x17206000002e40c00b903002e400000000002e20001fd80000c4041800d,
  0x4c227f13f8fe8000000000000000000000000000003fc1fe0ff00003f800000000c4081780b,
  0x4c23ec1f60ffc000000000000000000000000000003fe1ff0ff80003fd00000000c40c1900b,
  0x27d0ca80004fa19514286544fa00000000002e200020000000c4101980d,
  0x1720b380002e4167143059c2e400000000002e200020000000c4141a00d,
  0x1950ca800032a195201100832a00000000002e200020080000c0480900d,
  0x1950ca800032a195201100832a00000000002e200020180000c04c0980d,
  0x1950ca800032a195203101432a00000000002e200020200000c0500a00d,
  0x1950ca800032a195201100832a00000000002e200020200000c0540a80d,
  0x2b600020380000409414024,
  0x2b615b0ad9024000000000000000000000000000000c706303140004080000000040301580b,
  0x2b615b0ad856c000000000000000000000000000000cb065032400015c0000000040301600b,
  0x1950ca800032a1950ca865432a000000000081400013080000c0381680d,
  0x32a1950ca800032a1950ca865432a000000000081400013080000c10817041,
  0x4c226c13610340000000000000000000000000000040c206103000040b00000000c4181780b,
  0x17206000002e40c00b903002e400000000002e200020700000c41c1800d,
  0x1720b380002e41670b9059c2e400000000002e200020700000c4201800d,
  0x4c226c13610340000000000000000000000000000040f207903c00040b00000000c4241880b,
  0x27d0ca80004fa19513e86544fa00000000002e200020700000c4281800d,
  0x4c226c13610340000000000000000000000000000040c206103000041000000000c42c1780b,
  0x17206000002e40c00b903002e400000000002e200020880000c1e41800d,
  0x1720b380002e41670b9059c2e400000000002e200020880000c20c1800d,
  0x4c227f13f905000000000000000000000000000000413209904c00041200000000c4301880b,
  0x27d0ca80004fa19513e86544fa00000000002e200020880000c1fc1800d,
  0x4c227f13f90500000000000000000000000000000041520a905400041200000000c2081780b,
  0x4c241920c90600000000000000000000000000000041720b905c00041600000000c4301900b,
  0x27d0ca80004fa19520d86544fa00000000002e200020d00000c1fc1980d,
  0x1720b380002e416720e059c2e400000000002e200020d00000c20c1a00d,
  0x4c2261130907c0000000000000000000000000000041e20f107800041d00000000c0301780b,
  0x1950ca800032a1950ca865432a00000000002e200021000000c0381800d,
  0x4c2261130907c00000000000000000000000000000421210908400041d00000000c0301880b,
  0x4c2425212909000000000000000000000000000000423211908c00042200000000c0301900b,
  0x1950ca800032a195213865432a00000000002e200021300000c0381980d,
  0x1950ca800032a195214065432a00000000002e200021300000c0381a00d,
  0x852030018000006003001800c006000000000000da00003800002c10886841,
  0xe00700380348000000000000000000000000000000d106883440000d000000002c0308700b,
  0x1b40e0000000000033419a215866833442a0cd066833400000000000000d300000002c09c87826,
  0xe000015f80002c09488024,
  0x42e018000085842d21610b485800000000000da00003800002c0388880d,
  0xe007003801c00000000000000000000000000000042f21790bc0000d300000002c0308900b,
  0xe007003801c00000000000000000000000000000043021810c00000d300000002c0308980b,
  0xe007003803480000000000000000000000000000043121890c40000d000000002c0308a00b,
  0xe00000d480002c0948a824,
  0xe000021900002c0948b024,
  0x4360d2800086843521a10d4868000000000086600016900002c0388b80d,
  0xe043921c90e40000000000000000000000000000043821c10e000043700000002c0308c00b,
  0xe043921c90e40000000000000000000000000000043a21d10e800043700000002c0308c80b,
  0x30018000006003021e10f006000000000000da00021d80002c0388d00d,
  0x87a030018000006003021e10f006000000000000da00021d80002c1088d841,
  0x30018000006003021f90fc06000000000000da00021f00002c0388e00d,
  0xe0443221910800000000000000000000000000000441220910400044000000002c0308e80b,
  0x2ca0d500005941aa16506a859400000000000da00016900002c0388f00d,
  0x2ca0d280005941a5165069459400000000000da00022200002c0388f80d,
  0x2ca0d500005941aa16506a859400000000000da00022200002c0389000d,
  0x446223800088c447223111c88c00000000000da00022280002c0389080d,
  0x446224000088c448223112088c00000000000da00022280002c0389100d,
  0xe0443221912c0000000000000000000000000000044a225112800044900000002c0309180b,
  0x44c018000089803022600c089800000000000da00022200002c0389200d,
  0x44c018000089803022600c089800000000000da00016900002c0389280d,
  0xe0443221910c000000000000000000000000000001aa0d506a800044d00000002c0309300b,
  0xe0443221910800000000000000000000000000000441220910400044000000002c0309380b,
  0x1b40e00000000000060030018113889c44f227113889c00000000000000d300000002c09c94026,
  0x2ca16880005942d11650b4459400000000000da00022200002c0389480d,
  0x12c00022800003c50c12942,
  0x9804c00008a645322a11508a600000000008a400022880003c51007143,
  0x12c09604b02580000000000000000000000000000045522a915400009e00000003c51406144,
  0x12c09604b11600000000000000000000000000000045722b915c00045600000003c51806145,
  0x12c09604b116c0000000000000000000000000000045a22d116800045900000003c51c06146,
  0x12c00016e80003c52012947,
  0x9804c00008ba45d22e91748ba00000000008b800004b00003c52407148,
  0x12c09604b02580000000000000000000000000000045e22f117800009e00000003c52806149,
  0x12c09604b116c0000000000000000000000000000045f22f917c00045900000003c52c0614a,
  0x12c2e61730b98000000000000000000000000000003021810c0800046000000003c5302a94b,
  0x13012c000000000013009804c118813046104c0260130000000000000009e00000003c5344d94c,
  0x46823380008ca0e823303988ca00000000008c800023180003c5384e14d,
  0x46507700008ca0ee23303c08ca00000000008c800023180003c53c4e14e,
  0x46923380001e40e807903a01e4000000000009800007880003c5400714f,
  0x12c00017300003c54412950,
  0xf203d00001e407a23611ac1e4000000000009800023500003c5484e951,
  0x12c2e61730b98000000000000000000000000000000e807403a000046000000003c54c06152,
  0xf203d00001e407a23791b81e4000000000009800023680003c55007153,
  0x23800003c55400154,
  0x8e647223911c8000000000000000000000000000002ed1768bb400047100000023c55806155,
  0xba88e600000000008ea47523a91d48ea47623a91d48ea000000000000047400000023c09c13826,
  0x2eb17680005d62ed1758bb45d600000000005d400017480023c55c07156,
  0x2eb23b80005d647717591dc5d600000000005d400017480023c56007157,
  0x2eb17600005d62ec1758bb05d600000000005d400017480023c56407158,
  0x12c00023c00003c56812959,
  0x46503d00008ca07a23d11ac8ca00000000008c800023c80003c56c4f15a,
  0x12c2e61730b980000000000000000000000000000047b23d91ec0002e400000003c5700615b,
  0x5e600023e00013c5741295c,
  0x5e647c23e11f0000000000000000000000000000001c70e3871c00047d00000013c5780615d,
  0x5e62f31798bcc000000000000000000000000000002f517a8bd40002f400000013c0300600b,
  0x5e600017980013c09412824,
  0x2f517a80005ea2f517a8bd45ea000000000038800017980013c0380700d,
  0x5ea2f517a80005ea2f517a8bd45ea000000000038800017980013c10821041,
  0x47e17a80008fc2f523f0bd48fc00000000003880000e180013c57c0715e,
  0x9024802401200000000000000000000000000000002fc17e0bf000047f00000033c5800615f,
  0xbe49020000000000906483241920c906484241920c906000000000000048200000033c09c13826,
  0x2fa17e00005f42fc17d0bf05f400000000005f200017c00033c58407160,
  0x2fa24280005f448517d12145f400000000005f200017c00033c58807161,
  0x2fa17d80005f42fb17d0bec5f400000000005f200017c00033c58c07162,
  0x12c489244922000000000000000000000000000000487243921c00048600000003c5904f963,
  0xf207400001e40e824583bc1e400000000008c800024500003c5944e164,
  0xf207700001e40ee24583b01e400000000008c800024600003c59850165,
  0xf207400001e40e824583bc1e400000000008c800024600003c59c50166,
  0xf207700001e40ee24583b01e400000000008c800024500003c5a04e167,
  0xf203d00001e407a24792381e4000000000009800024680003c5a44e968,
  0xf203d00001e407a24792381e400000000008c800024800003c5a84f169,
  0x12c30f1878c3c0000000000000000000000000000030e1870c3800049100000003c5ac5096a,
  0x12c49524a925000000000000000000000000000000493249924c00049200000003c5b05116b,
  0x13012c000000000013009804c125c45249611488a4452000000000000009e00000003c5b45196c,
  0x49e24e800093249c24d926893200000000008c800024c00003c5b85216d,
  0x49925080009324a124d928093200000000008c800024f80003c5bc5296e,
  0x49e24e800093249c24d926893200000000008c800024f80003c5c05316f,
  0x49925080009324a124d928093200000000008c800024c00003c5c453970,
  0x49925080009324a124c9284932000000000009800025100003c5c854171,
  0x49e24e800093249c24c9270932000000000009800025100003c5cc54972,
  0x12c00018780003c5d055173,
  0x499185800093230b2529290932000000000046e00025180003c5d455974,
  0x12c30f1878c3c0000000000000000000000000000049c24e127000049100000003c5d856175,
  0x499185800093230b254129c932000000000009800025300003c5dc56976,
  0x12c00025480003c5e057177,
  0x499185800093230b252929093200000000008c800025500003c5e457978,
  0x12c30f1878c3c000000000000000000000000000004ab25592ac00030d00000003c5e82d979,
  0x12c30f1878c3c0000000000000000000000000000049c24e127000030d00000003c5ec2d97a,
  0x12c31418a0c500000000000000000000000000000049c24e12700004ac00000003c5f05817b,
  0x12c00025680003c5f42997c,
  0xf203d000095c4af25712bc95c000000000024e00007880003c5f82a17d,
  0x12c2e61730b98000000000000000000000000000004b025812c00002e400000003c5fc2a97e,
  0x12c1cf0e7873c000000000000000000000000000004b125892c40001ce00000003c6002b17f,
  0xf203d000095c4af25992c895c000000000024e00017e80003c6042b980,
  0x12c00016f80003c60829981,
  0x2e303d00009684b525a12d496800000000005c000007880003c60c2a182,
  0x12c1cf0e78bc0000000000000000000000000000004b625b12d80002ee00000003c6102b183,
  0x12c00016f80003c61429984,
  0x12c1cf0e78bc0000000000000000000000000000004b725b92dc0002ee00000003c6182b185,
  0x12c00025c00003c61c29986,
  0xf203d00009724bc25d92e8972000000000024e00017e80003c6202b987,
  0x12c2e61730b98000000000000000000000000000004bd25e92f40002e400000003c6242a988,
  0x12c1cf0e7873c000000000000000000000000000004be25f12f80001ce00000003c6282b189,
  0xf203d00009724bc25c92f0972000000000024e00007880003c62c2a18a,
  0x12c00025f80003c6302c18b,
  0x30c18580009804c32611304980000000000026600018280003c6342c98c,
  0x12c30f1878c3c000000000000000000000000000004c4262131000030d00000003c6382d18d,
  0x12c31418a0c50000000000000000000000000000004c526293140004ac00000003c63c2e18e,
  0xe000026300002c6402998f,
  0x108083800098e4c8263932098e00000000003300000f900002c6442a190,
  0xe04cb265932c000000000000000000000000000004ca26513280004c900000002c3602a8d7,
  0xe04cb265932c000000000000000000000000000004cc26613300004c900000002c360060d7,
  0xe03311988cc4000000000000000000000000000004cd266933400033000000002c6482b191,
  0x108083800098e4c8268133c98e000000000033000026700002c6442b990,
  0x1080f700002101ee08407b821000000000000da00003800002c3a0070e7,
  0xe000026580002c3a4128e8,
  0xe04cb265932c000000000000000000000000000001ee0f707b80004c900000002c3a8060e9,
  0xe000026300002c64c29992,
  0xe03311988cc4000000000000000000000000000004d1268934400033000000002c2082b081,
  0xe000026900002c3a4298e8,
  0x10808380009a64d626a93509a6000000000033000026700002c1e42b878,
  0xe04cb265932c000000000000000000000000000004d726b935c0004c900000002c3a82a8e9,
  0x10808380009a64d626993589a600000000003300000f900002c1e42a078,
  0xe000026c00002c3a42c0e8,
  0x4df26f00009b44dd26e136c9b4000000000034000026c80002c1e42c878,
  0xe04e22711388000000000000000000000000000004e127093840004e000000002c3a82d0e9,
  0xe04e22711388000000000000000000000000000004e3271938c0004e000000002c3a82d8e9,
  0xe033b19d8cec000000000000000000000000000004e527293940004e400000002c2082e081,
  0x1080f700002101ee19f07b821000000000000da00003800002c3a02e8e7,
  0x1080f700002101ee08407b821000000000000da00027300002c20c2f082,
  0x1500a800002a01500a805402a000000000007800027380001a000ca193,
  0x67e01500a800002a01501e80f402a000000000007800001d80001a000ca994,
  0x9d001500a800002a01501e80f402a000000000007800001d80001a000cb195,
  0x4ee27680009d401527613ac9d4000000000007800027480001a000cb996,
  0x4ea00a80009d401527613ac9d4000000000007800027480001a000cc197,
  0x4ef276800002a01500a805402a000000000007800001f80001a000cc998,
  0x1500a800002a01527813c002a000000000007800008a00001a000cd199,
  0x1500a800002a01527913c802a000000000007800027880001a000cd99a,
  0x4ea00a80009e611127a04549e6000000000022000008a00001a000ce19b,
  0x7e34f1a78d3c000000000000000000000000000004f627b13d80004f500000001a000ce99c,
  0xf007e000000000002a01500a93e002a4f700a805402a000000000000008900000001a000cf19d,
  0x4ff27f00009f612227e93f09f600000000009f400027c80001a000cf99e,
  0x4fb10a00009f621427e94009f600000000009f400027c80001a000d019f,
  0x50127f000041a122106848841a000000000007800010a80001a000d09a0,
  0x7e0001a780001a000d11a1,
  0x20d08e800041a11d282140c41a000000000007800028100001a000d19a2,
  0x7e34f1a78d3c0000000000000000000000000000012209104880004f500000001a000d21a3,
  0x20d08e800041a11d283941841a000000000007800028280001a000d29a4,
  0x7e03f01f942800000000000000000000000000000509284942400050800000001a000d31a5,
  0x1500a800002a01500a805402a000000000007800028580001a000d39a6,
  0x1500a800002a01500a805402a000000000007800028600001a000d41a7,
  0x7e03f01f943c0000000000000000000000000000050e287143800050d00000001a000d49a8,
  0x1500a800002a01500a805402a000000000007800028800001a000d51a9,
  0x7e00028880001a000d59aa,
  0x20d08e8000a2411c2890470a24000000000022000010a80001a000d61ab,
  0x7e34f1a78d3c00000000000000000000000000000513289944c00034d00000001a000d69ac,
  0x7e34f1a78d3c00000000000000000000000000000122091048800034d00000001a000d71ad,
  0x7e3591ac8d6400000000000000000000000000000124092049000036400000001a000d79ae,
  0xa2c51528a94540000000000000000000000000000035f1af8d7c00051400000009a000d81af,
  0xd70a2c0000000000a3051828c1460a3051928c1460a30000000000000051700000009a00013826,
  0x35d1af80006ba35f1ae8d7c6ba00000000006b80001ad80009a000d89b0,
  0x35d28d00006ba51a1ae94686ba00000000006b80001ad80009a000d91b1,
  0x35d1af00006ba35e1ae8d786ba00000000006b80001ad80009a000d99b2,
  0x7e00028d80001a000da1b3,
  0x4fb08e8000a3c11c28f8468a3c0000000000a3a00028e00001a000da9b4,
  0x7e34f1a78d3c00000000000000000000000000000520290148000034d00000001a000db1b5,
  0x20d091000041a122106848841a000000000007800001f80001a000db9b6,
  0x7e0001a780001a000dc1b7,
  0x1500a800002a015291148802a000000000007800029080001a000dc9b8,
  0xa4601500a800002a015291148802a000000000007800029080001a000dd1b9,
  0x9804c000013009804c0260130000000000009800029200003c650ca193,
  0x6ce09804c000013009811d08e8130000000000009800011c80003c654ca994,
  0xa4a09804c000013009811d08e8130000000000009800011c80003c658cb195,
  0x12c12c09604b00000000000000000000000000000036f1b78dbc00021900000003c6ec899ba,
  0x52b2950000a4e04f29494a0a4e000000000009800029300003c6f0cb9bb,
  0x5270290000a4e05229494b0a4e000000000009800029300003c6f4cc1bc,
  0x52d295000003e04f00f813c03e000000000009800002980003c6f8cc9bd,
  0x1f00f000003e01e29794b803e000000000009800009700003c6fccd1be,
  0x1f00f000003e01e29914c403e000000000009800029800003c700cd9bf,
  0x52700f0000a6612929a04bca66000000000024e00009700003c704ce1c0,
  0x12c3781bc0de00000000000000000000000000000053629b14d800053500000003c708ce9c1,
  0x13012c000000000013009804c14e013053704c0260130000000000000009e00000003c678cf19d,
  0x53f29f0000a7613d29e94f0a760000000000a7400029c80003c70ccf9c2,
  0x53b11a0000a7623429e9500a760000000000a7400029c80003c710d01c3,
  0x54129f000045a13d11684f445a000000000009800011a80003c714d09c4,
  0x12c0001bc00003c718d11c5,
  0x22d09c000045a1382a2150c45a00000000000980002a100003c71cd19c6,
  0x12c3781bc0de00000000000000000000000000000013d09e84f400053500000003c720d21c7,
  0x22d09c000045a1382a3951845a00000000000980002a280003c724d29c8,
  0x12c09604b1528000000000000000000000000000005492a4952400054800000003c698d31a5,
  0x9804c000013009804c026013000000000000980002a580003c69cd39a6,
  0x9804c000013009804c026013000000000000980002a600003c6a0d41a7,
  0x12c09604b153c0000000000000000000000000000054e2a7153800054d00000003c6a4d49a8,
  0x9804c000013009804c026013000000000000980002a800003c6a8d51a9,
  0x12c0002a880003c728d59c9,
  0x22d09c0000aa41372a904dcaa4000000000024e00011a80003c72cd61ca,
  0x12c3781bc0de0000000000000000000000000000005532a9954c00037600000003c730d69cb,
  0x12c3781bc0de00000000000000000000000000000013d09e84f400037600000003c734d71cc,
  0x12c3821c10e080000000000000000000000000000013f09f84fc00038d00000003c738d79cd,
  0xaac5552aa9554000000000000000000000000000003881c40e200005540000002bc73cd81ce,
  0xe14aac0000000000ab05582ac1560ab05592ac1560ab000000000000005570000002bc09c13826,
  0x3861c4000070c3881c30e2070c000000000070a0001c20002bc740d89cf,
  0x3862ad000070c55a1c3156870c000000000070a0001c20002bc744d91d0,
  0x3861c3800070c3871c30e1c70c000000000070a0001c20002bc748d99d1,
  0x12c0002ad80003c74cda1d2,
  0x53b09c0000abc1372af84d4abc0000000000aba0002ae00003c750da9d3,
  0x12c3781bc0de0000000000000000000000000000005602b0158000037600000003c754db1d4,
  0x22d09e800045a13d11684f445a000000000009800004b00003c758db9d5,
  0x12c0001bc00003c75cdc1d6,
  0x9804c00001300982b1158813000000000000980002b080003c6e4dc9b8,
  0xac609804c00001300982b1158813000000000000980002b080003c6e8dd1b9,
  0x12c0001c900003c14c29852,
  0x9804c0000ac85642b21590ac8000000000024e00004b00003c1502a053,
  0x12c09604b02580000000000000000000000000000021b10d886c00009e00000003c1542a854,
  0x12c09604b0258000000000000000000000000000005652b2959400009e00000003c1582b055,
  0x9804c0000ac85642b3959cac8000000000024e0002b300003c15c2b856,
  0x12c0002b400003c1602c057,
  0x56f2b70000ad456d2b615acad400000000002660002b480003c1642c858,
  0x12c5722b915c8000000000000000000000000000005712b895c400057000000003c1682d059,
  0x12c5722b915c8000000000000000000000000000005732b995cc00057000000003c16c2d85a,
  0x12c3981cc0e60000000000000000000000000000005752ba95d400057400000003c1702e05b,
  0x9804c00001300981cd8260130000000000009800004b00003c1742e85c,
  0x9804c000013009804c026013000000000000980002bb00003c1782f05d,
  0xe000012200002c4a812929,
  0xe01490a48520000000000000000000000000000001470a3851c00014600000002c0f08703b,
  0x5f05a00000be0b402f82d00be00000000000da0000a500002c06818019,
  0xe00002bb80002c19888065,
  0x57a02f0000af05792bc15e4af000000000000da00005a80002c0e088837,
  0xe024412209100000000000000000000000000000057b2bd95ec00024200000002c18889061,
  0xe024412209100000000000000000000000000000057c2be15f000024200000002c18889861,
  0xe01490a485200000000000000000000000000000057d2be95f400014600000002c0f08a03b,
  0xe000012980002c4a88a929,
  0xe00002bf00002c1988b065,
  0x5811278000afe5802bf9600afe00000000008660001d900002c0e08b837,
  0xe05842c21610000000000000000000000000000005832c1960c00058200000002c1888c061,
  0xe05842c21610000000000000000000000000000005852c2961400058200000002c1888c861,
  0xe05892c49620000000000000000000000000000005872c3961c00058600000002c0f08e83b,
  0x3aa12a00007542541d5095075400000000000da0001d900002c06c8f01a,
  0x3aa127800075424f1d5093c75400000000000da0002c500002c0e08f837,
  0x3aa12a00007542541d5095075400000000000da0002c500002c06c9001a,
  0x58c2c68000b1858d2c61634b1800000000000da0002c580002c0e090837,
  0x58c2c70000b1858e2c61638b1800000000000da0002c580002c06c9101a,
  0xe05892c49644000000000000000000000000000005902c8164000058f00000002c0f09183b,
  0x5920180000b240302c900c0b2400000000000da0002c500002c0ec9203a,
  0x5920180000b240302c900c0b2400000000000da0001d900002c0ec9283a,
  0xe05892c496240000000000000000000000000000025412a095000059300000002c0f09303b,
  0xe05892c49620000000000000000000000000000005872c3961c00058600000002c0f09383b,
  0x3aa1d880007543b11d50ec475400000000000da0002c500002c06894819,
  0x4c20002ca00000c50c12824,
  0x1950ca8000b2e5972cc1660b2e0000000000b2c0002ca80000c5100700d,
  0x4c22611308984000000000000000000000000000005992cc966400026d00000000c5140600b,
  0x4c226113096700000000000000000000000000000059b2cd966c00059a00000000c5180600b,
  0x4c2261130967c0000000000000000000000000000059e2cf167800059d00000000c51c0600b,
  0x4c20001de00000c52012824,
  0x1950ca8000b425a12d09684b420000000000b4000013080000c5240700d,
  0x4c22611308984000000000000000000000000000005a22d1168800026d00000000c5280600b,
  0x4c2261130967c000000000000000000000000000005a32d1968c00059d00000000c52c0600b,
  0x4c23c51e28f14000000000000000000000000000003da1ed0f680005a400000000c5302a80b,
  0x5c44c2000000000032a1950ca969832a5a50ca865432a000000000000026d00000000c5344d826,
  0x5ac2d58000b521672d50594b520000000000b500002d380000c5384e00d,
  0x5a90b68000b5216d2d505bcb520000000000b500002d380000c53c4e00d,
  0x5ad2d580002e41670b9059c2e400000000002e20000b800000c5400700d,
  0x4c20001e280000c54412824,
  0x17206000002e40c02d816bc2e400000000002e20002d700000c5484e80d,
  0x4c23c51e28f14000000000000000000000000000001670b3859c0005a400000000c54c0600b,
  0x17206000002e40c02d996c82e400000000002e20002d880000c5500700d,
  0x4c25b52da96d4000000000000000000000000000003ca1e50f280005b400000000c5580600b,
  0x3c81e500007903ca1e40f2879000000000002e20001e380000c55c0700d,
  0x3c82db00007905b61e416d879000000000002e20001e380000c5600700d,
  0x3c81e480007903c91e40f2479000000000002e20001e380000c5640700d,
  0x4c20002db80000c56812824,
  0x5a90600000b520c02dc96bcb520000000000b500002dc00000c56c4f00d,
  0x4c23c51e28f14000000000000000000000000000005ba2dd16e80003c300000000c5700600b,
  0x4c20002dd80000c57412824,
  0x4c25bb2dd96ec0000000000000000000000000000027713b89dc0005bc00000000c5780600b,
  0x5bd0ca8000b7a1952de8654b7a00000000002e200013a00000c57c0700d,
  0x4c25bf2df96fc000000000000000000000000000003d41ea0f500005be00000000c5800600b,
  0x3d21ea00007a43d41e90f507a400000000002e20001e880000c5840700d,
  0x3d22e000007a45c01e917007a400000000002e20001e880000c5880700d,
  0x3d21e980007a43d31e90f4c7a400000000002e20001e880000c58c0700d,
  0x4c25c42e2170c000000000000000000000000000005c22e117080005c100000000c5904f80b,
  0x1720b380002e41672e305b82e40000000000b500002e280000c5944e00d,
  0x1720b680002e416d2e305ac2e40000000000b500002e380000c5985000d,
  0x1720b380002e41672e305b82e40000000000b500002e380000c59c5000d,
  0x1720b680002e416d2e305ac2e40000000000b500002e280000c5a04e00d,
  0x17206000002e40c02e517242e400000000002e20002e400000c5a44e80d,
  0x17206000002e40c02e517242e40000000000b500002e580000c5a84f00d,
  0x4c23e71f38f9c000000000000000000000000000003e61f30f980005cc00000000c5ac5080b,
  0x4c25d02e8173c000000000000000000000000000005ce2e717380005cd00000000c5b05100b,
  0x5c44c2000000000032a1950ca974cba25d22e89744ba2000000000000026d00000000c5b451826,
  0x5da2ec8000baa5d82eb9758baa0000000000b500002ea00000c5b85200d,
  0x5d52ee8000baa5dd2eb9770baa0000000000b500002ed80000c5bc5280d,
  0x5da2ec8000baa5d82eb9758baa0000000000b500002ed80000c5c05300d,
  0x5d52ee8000baa5dd2eb9770baa0000000000b500002ea00000c5c45380d,
  0x5d52ee8000baa5dd2ea9774baa00000000002e20002ef00000c5c85400d,
  0x5da2ec8000baa5d82ea9760baa00000000002e20002ef00000c5cc5480d,
  0x4c20001f380000c5d055024,
  0x5d51f18000baa3e32f11784baa0000000000bc00002ef80000c5d45580d,
  0x4c23e71f38f9c000000000000000000000000000005d82ec17600005cc00000000c5d85600b,
  0x5d51f18000baa3e32f29790baa00000000002e20002f180000c5dc5680d]

def splitStates2 : List Nat := [
  0x4c20002f300000c5e057024,
  0x5d51f18000baa3e32f11784baa0000000000b500002f380000c5e45780d,
  0x4c23e71f38f9c000000000000000000000000000005e82f417a00003e500000000c5e82d80b,
  0x4c23e71f38f9c000000000000000000000000000005d82ec17600003e500000000c5ec2d80b,
  0x4c23ec1f60fb0000000000000000000000000000005d82ec17600005e900000000c5f05800b,
  0x4c20002f500000c5f429824,
  0x1720600000bd85ed2f617b4bd80000000000bd60000b800000c5f82a00d,
  0x4c23c51e28f14000000000000000000000000000005ee2f717b80003c300000000c5fc2a80b,
  0x4c227f13f89fc000000000000000000000000000005ef2f797bc00027e00000000c6002b00b,
  0x1720600000bd85ed2f897c0bd80000000000bd60001ea80000c6042b80d,
  0x4c20001df00000c60829824,
  0x3c20600000be45f32f917ccbe4000000000077e0000b800000c60c2a00d,
  0x4c227f13f8f34000000000000000000000000000005f42fa17d00003cb00000000c6102b00b,
  0x4c20001df00000c61429824,
  0x4c227f13f8f34000000000000000000000000000005f52fa97d40003cb00000000c6182b00b,
  0x4c20002fb00000c61c29824,
  0x1720600000bee5fa2fc97e0bee0000000000bd60001ea80000c6202b80d,
  0x4c23c51e28f14000000000000000000000000000005fb2fd97ec0003c300000000c6242a80b,
  0x4c227f13f89fc000000000000000000000000000005fc2fe17f000027e00000000c6282b00b,
  0x1720600000bee5fa2fb97e8bee0000000000bd60000b800000c62c2a00d,
  0x4c20002fe80000c6302c024,
  0x3e41f18000bfe6023009800bfe0000000000bfc0001ee80000c6342c80d,
  0x4c23e71f38f9c00000000000000000000000000000603301980c0003e500000000c6382d00b,
  0x4c23ec1f60fb00000000000000000000000000000060430218100005e900000000c63c2e00b,
  0x4c2261130981c00000000000000000000000000000606303181800060500000000c0bc1780b,
  0x1950ca800032a1950ca865432a00000000002e200030400000c0c01800d,
  0x4c2261130981c00000000000000000000000000000609304982400060500000000c0c41880b,
  0x4c260d30698300000000000000000000000000000060b305982c00060a00000000c0c81900b,
  0x1950ca800032a195307865432a00000000002e200030700000c0cc1980d,
  0x1950ca800032a195308065432a00000000002e200030700000c0d01a00d,
  0x2b615b0ad9024000000000000000000000000000001570ab05540004080000000040302180b,
  0x2b600020480000409420024,
  0x2b615b0ad9024000000000000000000000000000001850c206100004080000000040302080b,
  0x5c44c200000000005462a31518a8c5462a41518a8c546000000000000026d00000000c09c08826,
  0x4c200030880000c64029824,
  0x1720600000c266143099850c260000000000c240000b800000c6442a00d,
  0x4c23c51e28f140000000000000000000000000000061530a98540003c300000000c3602a80b,
  0x4c227f13f89fc0000000000000000000000000000061630b185800027e00000000c6482b00b,
  0x1720600000c2661430c9860c260000000000c2400030b80000c6442b80d,
  0x4c200030880000c64c29824,
  0x4c227f13f89fc0000000000000000000000000000061a30d186800027e00000000c2082b00b,
  0x4c200030d80000c3a429824,
  0x1720600000c3861f30f1874c380000000000c2400030b80000c1e42b80d,
  0x4c23c51e28f140000000000000000000000000000062031018800003c300000000c3a82a80b,
  0x1720600000c3861f30e187cc380000000000c240000b800000c1e42a00d,
  0x4c200031080000c3a42c024,
  0x6293140000c486273131894c480000000000c4600031100000c1e42c80d,
  0x4c262c31618b00000000000000000000000000000062b31598ac00062a00000000c3a82d00b,
  0x4c262c31618b00000000000000000000000000000062d31698b400062a00000000c3a82d80b,
  0x4c241920c90640000000000000000000000000000062f31798bc00062e00000000c2082e00b,
  0x1720b380002e416720e059c2e400000000002e200013080000c3a02e80d,
  0x1720b380002e41670b9059c2e400000000002e200031800000c20c2f00d,
  0x4c200020f80000c09429824,
  0x1950ca8000c6263131898c4c620000000000c2400013080000c0382a00d,
  0x4c226113089840000000000000000000000000000063231918c800026d00000000c0302a80b,
  0x4c226113089840000000000000000000000000000063331998cc00026d00000000c0302b00b,
  0x1950ca8000c6263131a98d4c620000000000c2400031a00000c0382b80d,
  0x4c200031b00000c0942c024,
  0x63d31e0000c7063b31d18e4c700000000000c4600031b80000c0382c80d,
  0x4c264032019000000000000000000000000000000063f31f98fc00063e00000000c0302d00b,
  0x4c2640320190000000000000000000000000000000641320990400063e00000000c0302d80b,
  0x4c2425212909400000000000000000000000000000643321990c00064200000000c0302e00b,
  0x1950ca800032a195214065432a00000000002e200013080000c0382e80d,
  0x1950ca800032a1950ca865432a00000000002e200032200000c0382f00d,
  0x30018000006003001800c006000000000000da00032280002c038ca00d,
  0x852030018000006003003701b806000000000000da00003600002c108ca841,
  0x30018000006003003701b806000000000000da00003600002c038cb00d,
  0x64b3250000c8e0303249920c8e00000000000da00032300002c038cb80d,
  0x6470180000c8e0303249920c8e00000000000da00032300002c038cc00d,
  0x64c325000006003001800c006000000000000da00003800002c038cc80d,
  0x300180000060030326993406000000000000da0000ce00002c038cd00d,
  0x300180000060030327993c06000000000000da00032700002c038cd80d,
  0x6470180000ca01993288674ca000000000003300000ce00002c038ce00d,
  0xe043921c90e400000000000000000000000000000653329994c00065200000002c030ce80b,
  0x1b40e00000000000060030018195406065401800c006000000000000000d300000002c09ccf026,
  0x65c32d8000cb01aa32d1964cb00000000000cae00032b00002c038cf80d,
  0x6581688000cb02d132d1974cb00000000000cae00032b00002c038d000d,
  0x65e32d80005941aa16506a859400000000000da00016900002c038d080d,
  0xe000021c80002c094d1024,
  0x2ca0d280005941a5330998059400000000000da00032f80002c038d180d,
  0xe043921c90e4000000000000000000000000000001aa0d506a800065200000002c030d200b,
  0x2ca0d280005941a5332198c59400000000000da00033100002c038d280d,
  0xe0070038199c00000000000000000000000000000666333199800066500000002c030d300b,
  0x30018000006003001800c006000000000000da00033400002c038d380d,
  0x30018000006003001800c006000000000000da00033480002c038d400d,
  0xe007003819b00000000000000000000000000000066b33599ac00066a00000002c030d480b,
  0x30018000006003001800c006000000000000da00033680002c038d500d,
  0xe000033700002c094d5824,
  0x2ca0d28000cde1a43378690cde000000000033000016900002c038d600d,
  0xe043921c90e40000000000000000000000000000067033819c000043700000002c030d680b,
  0xe043921c90e4000000000000000000000000000001aa0d506a800043700000002c030d700b,
  0xe0443221910c000000000000000000000000000001ac0d606b000044d00000002c030d780b,
  0xe067233919c800000000000000000000000000000448224112000067100000002c030d800b,
  0x446224000088c448223112088c00000000000da00022280002c038d880d,
  0x446339800088c67322319cc88c00000000000da00022280002c038d900d,
  0x446223800088c447223111c88c00000000000da00022280002c038d980d,
  0xe000033a00002c094da024,
  0x6580d28000cee1a433c0688cee0000000000cec00033a80002c038da80d,
  0xe043921c90e40000000000000000000000000000067933c99e400043700000002c030db00b,
  0x2ca0d500005941aa16506a859400000000000da00003800002c038db80d,
  0xe000021c80002c094dc024,
  0x30018000006003033d99ec06000000000000da00033d00002c038dc80d,
  0xcf8030018000006003033d99ec06000000000000da00033d00002c108dd041,
  0x12c09604b02580000000000000000000000000000045522a915400009e00000003c760061d7,
  0x12c09604b19fc0000000000000000000000000000067e33f19f800067d00000003c764061d8,
  0x13012c000000000013009804c1a0cd046813401a00d00000000000000009e00000003c768139d9,
  0x9804c00001300980da86d41300000000000d0a00034200003c76c071da,
  0x9804c00001300980da86d41300000000000d0a00034300003c770071db,
  0x9804c00001300980da86d41300000000000d1000034380003c774071dc,
  0x12c00034480003c778129dd,
  0x9804c00001300980da86d41300000000000d0a00034200003c77c071de,
  0x12c09604b02580000000000000000000000000000068a3451a2800009e00000003c780061df,
  0x12c00034580003c784129e0,
  0x9804c00001300980dc06e01300000000000d1a00034600003c788071e1,
  0x12c09604b02580000000000000000000000000000068e3471a3800009e00000003c78c061e2,
  0x13012c000000000013009804c117813068f04c0260130000000000000009e00000003c790139e3,
  0x9804c00001300980dc06e01300000000000d1a00034600003c794071e4,
  0x9804c00001300980dc06e013000000000000980000db80003c798071e5,
  0x9804c00001300980dc06e01300000000000d1a00034600003c79c071e6,
  0x12c00017300003c7a0129e7,
  0xd2009804c000013009804c0260130000000000009800004b00003c7a4869e8,
  0x9804c00001300983491a48130000000000009800034880003c7a84e9e9,
  0x12c1bc0de06ec000000000000000000000000000001ba0dd06e80001b900000003c7ac871ea,
  0x13012c00000000008c446234a11888c469323111888c4000000000000009e00000003c7b0879eb,
  0x69634a80001e40e807903a01e4000000000009800007880003c7b4071ec,
  0x69634a80001e40e807903a01e400000000000980000e100003c7b8181ed,
  0x69834c8000d3069934c1a64d30000000000038800034b80003c7bc071ee,
  0x69c34d8000d3069a34c1a68d30000000000038800034b80003c7c0071ef,
  0x69834d0000d3069a34c1a68d30000000000038800034b80003c7c4071f0,
  0x12c1bc0de06ec000000000000000000000000000001ba0dd06e800069d00000003c7c8179f1,
  0xf207700001e40ee07903b81e400000000000980000e100003c7cc181f2,
  0xf207400001e40e807903a01e400000000000980000e100003c7d0181f3,
  0x12c1bc0de06f00000000000000000000000000000069f34f9a7c00069e00000003c7d4061f4,
  0xf207700001e40ee07903b81e4000000000009800035000003c7d8071f5,
  0xf207400001e40e807903a01e4000000000009800035000003c7dc071f6,
  0x1a8c000000000000000000000000000006a23511a880006a100000003c7e0001f7,
  0x8e600035200023c7e4129f8,
  0x8e66a43521a90000000000000000000000000000002ed1768bb40006a500000023c7e8061f9,
  0x8e647323991cc0000000000000000000000000000047523a91d400047400000023c0300600b,
  0x8e600023980023c09412824,
  0x47523a80008ea47523a91d48ea00000000005d400023980023c0380700d,
  0x8ea47523a80008ea47523a91d48ea00000000005d400023980023c10821041,
  0x6a623a8000d4c47535311d4d4c00000000005d400017480023c7ec071fa,
  0x12c2e61730b980000000000000000000000000000047b23d91ec00046000000003c7f0061fb,
  0x12c1bc0de06ec000000000000000000000000000001ba0dd06e800069d00000003c7f4871fc,
  0x69634a80001e40e807903a01e400000000000980000e100003c7f8181fd,
  0xf203d00001e407a07901e81e40000000000d4e00007880003c7fc071fe,
  0x5e647c23e11f0000000000000000000000000000001c70e3871c0006a800000013c800061ff,
  0x5e600023e00013c80412a00,
  0x1c50e3800038a1c70e2871c38a000000000038800017980013c80807201,
  0x90200035480033c80c12a02,
  0x9026a93549aa4000000000000000000000000000002fc17e0bf00006aa00000033c81006203,
  0x902481240920400000000000000000000000000000483241920c00048200000033c0300600b,
  0x90200024080033c09412824,
  0x4832418000906483241920c90600000000005f200024080033c0380700d,
  0x9064832418000906483241920c90600000000005f200024080033c10821041,
  0x6ab2418000d56483355920cd5600000000005f200017c00033c81407204,
  0x12c00035600003c81888205,
  0x6af03d0000d5a6ae3569ab8d5a000000000009800007880003c81c88a06,
  0x12c2e61730b98000000000000000000000000000006b03581ac00002e400000003c82089207,
  0x12c2e61730b98000000000000000000000000000006b13589ac40002e400000003c360898d7,
  0x12c1bc0de072c000000000000000000000000000006b23591ac80001b900000003c82487208,
  0xf207400001e40e807903a01e400000000000980000e600003c82818209,
  0x12c1bc0de072c000000000000000000000000000006b33599acc0001b900000003c82c8a20a,
  0x12c1bc0de072c000000000000000000000000000006b23591ac800069d00000003c83017a0b,
  0xf207700001e40ee07903b81e400000000000980000e600003c8341820c,
  0xf207400001e40e807903a01e400000000000980000e600003c8381820d,
  0x12c1bc0de072c000000000000000000000000000006b23591ac800069d00000003c83c8720e,
  0x12c00018780003c8408aa0f,
  0x12c00035a00003c8448b210,
  0x6b71858000d6a6b635a9ad8d6a00000000006e400025100003c8488ba11,
  0x12c6ba35d1ae8000000000000000000000000000006b935c9ae40006b800000003c84c8c212,
  0x12c6ba35d1ae8000000000000000000000000000006bb35d9aec0006b800000003c8508ca13,
  0xd7809804c00001300981bd8dec13000000000000980001bd00003c8548da14,
  0x9804c000013009835f1af8130000000000009800035e80003c8588e215,
  0x12c6c23611b04000000000000000000000000000006c03601b000006bf00000003c85c8ea16,
  0x49924e000093249c24c9270932000000000009800025100003c8608f217,
  0x499185800093230b24c8c2c932000000000009800036180003c8648fa18,
  0x49924e000093249c24c9270932000000000009800036180003c86890219,
  0x499185800093230b24c8c2c932000000000009800025100003c86c56a1a,
  0x6c53630000d8a6c63629b18d8a000000000070a00036200003c87090a1b,
  0x6c53638000d8a6c73629b1cd8a000000000070a00036200003c8749121c,
  0x12c6c23611b28000000000000000000000000000006c93649b240006c800000003c87891a1d,
  0x6cb04c0000d960983658260d96000000000009800036180003c87c9221e,
  0x6cb04c0000d960983658260d96000000000009800025100003c88092a1f,
  0x12c6cd3669b340000000000000000000000000000049c24e12700006cc00000003c88493220,
  0x12c6c23611b04000000000000000000000000000006c03601b000006ce00000003c88893a21,
  0x49925080009324a124c9284932000000000009800036180003c88c94a22,
  0x49924e000093249c24c9270932000000000009800036180003c89090223,
  0x12c6c23611b08000000000000000000000000000006d03681b400006cf00000003c89493224,
  0x49925080009324a124c9284932000000000009800036880003c89854225,
  0x49924e000093249c24c9270932000000000009800036880003c89c8f226,
  0x12c30f1878c3c000000000000000000000000000004ab25592ac00049100000003c8a056227,
  0x12c6c23611b04000000000000000000000000000006c03601b000006ce00000003c8a48ea28,
  0x499185800093230b24c8c2c9320000000000d4e00025100003c8a856a29,
  0x12c00018780003c8ac5722a,
  0x12c2e61730b98000000000000000000000000000004b025812c000046000000003c8b02aa2b,
  0xf207400001e40e836a1b4c1e4000000000043a00036900003c8b44e22c,
  0xf207700001e40ee36a1b541e4000000000043a00036900003c8b84e22d,
  0xf203d00001e407a36c1b5c1e4000000000009800036b00003c8bc4ea2e,
  0xf203d00001e407a36c1b5c1e4000000000043a00036c80003c8c04f22f,
  0xf207700001e40ee36a1b541e4000000000043a00036d00003c8c450230,
  0xf207400001e40e836a1b4c1e4000000000043a00036d00003c8c850231,
  0x46823380008ca0e823303988ca00000000008c800023180003c8cc4e232,
  0x46507700008ca0ee23303c08ca00000000008c800023180003c8d04e233,
  0x46503d00008ca07a23d11ac8ca00000000008c800023c80003c8d44f234,
  0x46503d00008ca07a36e9b708ca00000000008c800036d80003c8d84f235,
  0x12c2e61730b98000000000000000000000000000004bd25e92f400046000000003c8dc2aa36,
  0xf207400001e40e80f287981e4000000000043a00036f00003c8e04e237,
  0xf207700001e40ee0f287901e4000000000043a00036f80003c8e450238,
  0xf207400001e40e80f287981e4000000000043a00036f80003c8e850239,
  0xf207700001e40ee0f287901e4000000000043a00036f00003c8ec4e23a,
  0xf203d00001e407a0f29b801e400000000000980000f380003c8f04ea3b,
  0xf203d00001e407a0f29b801e4000000000043a00036f00003c8f44f23c,
  0x12c30f1878c3c000000000000000000000000000004c4262131000049100000003c8f850a3d,
  0x49e24e800093249c3719b88932000000000043a00037080003c8fc5223e,
  0x49925080009324a13719b94932000000000043a00037200003c90052a3f,
  0x49e24e800093249c3719b88932000000000043a00037200003c90453240,
  0x49925080009324a13719b94932000000000043a00037080003c90853a41,
  0x499185800093230b3719b9c932000000000046e00037300003c90c55a42,
  0x499185800093230b3719b9c932000000000043a00037080003c91057a43,
  0xe04cb265932c000000000000000000000000000004ca26513280006e800000002c9142aa44,
  0x1080f700002101ee3759ba8210000000000057600037480002c9184e245,
  0x1080f880002101f13759bb0210000000000057600037480002c91c4e246,
  0xe000026580002c54412950,
  0x10808380002101073779bb821000000000000da00037680002c5504e953,
  0xe04cb265932c000000000000000000000000000001ee0f707b80006e800000002c54c06152,
  0x10808380002101073791bc421000000000000da00037800002c55007153,
  0x10808380002101073779bb8210000000000057600037980002c5504f153,
  0xe06f737b9bd8000000000000000000000000000006f537a9bd40006f400000002c2084f881,
  0x1080f880002101f13759bb0210000000000057600037c00002c91c50246,
  0x1080f700002101ee3759ba8210000000000057600037c00002c91850245,
  0x10808380002101070fa9be8210000000000057600037c80002c1e44f078,
  0xe04cb265932c000000000000000000000000000004d726b935c0006e800000002c54c2a952,
  0x1080f700002101ee0fa87d0210000000000057600037c80002c20c4e082,
  0x1080f880002101f10fa87dc210000000000057600037d80002c12450048,
  0x1080f700002101ee0fa87d0210000000000057600037d80002c20c50082,
  0x1080f880002101f10fa87dc210000000000057600037c80002c1244e048,
  0x10808380002101070fa9be821000000000000da0000fc00002c1e44e878,
  0xe04e22711388000000000000000000000000000004e127093840006fc00000002c54c50952,
  0xe07003801bfc000000000000000000000000000006fe37f1bf80006fd00000002c20851081,
  0x7063828000e044e33821c0ce04000000000057600038080002c20c52082,
  0x7023848000e047093821c20e04000000000057600038380002c12452848,
  0x7063828000e044e33821c0ce04000000000057600038380002c20c53082,
  0x7023848000e047093821c20e04000000000057600038080002c12453848,
  0x7023848000e047093811c24e0400000000000da00038500002c12454048,
  0x7063828000e044e3381138ce0400000000000da00038500002c20c54882,
  0xe000027100002c54455150,
  0x70226f0000e044de3821c30e0400000000005a800038580002c1e455878,
  0xe04e22711388000000000000000000000000000004e3271938c0006fc00000002c54c56152,
  0x70226f0000e044de3811378e0400000000000da00038500002c1e456878,
  0xe000027100002c3a4570e8,
  0x70226f0000e044de3821c30e04000000000057600038080002c1e457878,
  0xe033b19d8cec000000000000000000000000000004e3271938c0004e400000002c20858081,
  0x7e03f01f80fc0000000000000000000000000000070d3869c3400008900000001a00124247,
  0x38700001a00124a48,
  0x7e202101080400000000000000000000000000000200100080000070f00000001a00125249,
  0x711388000002a01500a805402a000000000007800001f80001a00125a4a,
  0x1500a800002a01500a805402a000000000007800038900001a0012624b,
  0x711388000002a01500a805402a000000000007800038900001a00126a4c,
  0x71538b0000e2a71638a9c58e2a0000000000e2800038980001a0012724d,
  0x71938c0000e2a71738a9c5ce2a0000000000e2800038980001a00127a4e,
  0x71538b8000e2a71738a9c5ce2a0000000000e2800038980001a0012824f,
  0x1500a800002a01500a805402a000000000007800038900001a00128a50,
  0x7e20210108080000000000000000000000000000071a38d1c680001ff00000001a00129251,
  0x1500a800002a01500a805402a000000000007800010100001a00129a52,
  0x711388000002a01501e80f402a00000000003fc0000fe80001a0012a253,
  0x711388000002a01501e80f402a00000000003fc00010180001a0012aa54,
  0x7e0001a780001a0012b255,
  0x20d08e800041a11d38e9c7041a000000000007800038d80001a0012ba56,
  0xe3c01500a800002a01500a805402a000000000007800001f80001a0012c257,
  0x1500a800002a0151a90d4802a00000000000780001a880001a0012ca58,
  0x7e208104081c00000000000000000000000000000206103081800071f00000001a0012d259,
  0xf007e00000000009f04f839093e09f072027c13e09f0000000000000008900000001a0012da5a,
  0x723391000041a122106848841a000000000007800010a80001a0012e25b,
  0x20d08e800041a11d106847441a000000000007800039200001a0012ea5c,
  0x723391000041a122106848841a000000000007800039200001a0012f25d,
  0x7263938000e4c7273931c9ce4c0000000000e2800039280001a0012fa5e,
  0x72a3948000e4c7283931ca0e4c0000000000e2800039280001a0013025f,
  0x36300a80006c60151b180546c6000000000007800039200001a00130a60,
  0x7263940000e4c7283931ca0e4c0000000000e2800039280001a00131261,
  0x7e208104081c00000000000000000000000000000206103081800020500000001a00131a62,
  0x20d10a000041a214106885041a000000000007800039200001a00132263,
  0x20d091000041a122106848841a000000000007800039200001a00132a64,
  0x7e20810408200000000000000000000000000000072c3961cb000072b00000001a00133265,
  0x20d10a000041a214106885041a000000000007800039680001a00133a66,
  0x20d091000041a122106848841a000000000007800039680001a00134267,
  0x7e00028500001a00134a68,
  0x1500a8000e5c72e3971cb8e5c000000000069200001f80001a00135269,
  0x7e03f01f80fc000000000000000000000000000004f827c13e000008900000001a00135a6a,
  0x7e03f01f9cc4000000000000000000000000000007303981cc000072f00000001a0013626b,
  0x7e03f01f9cc4000000000000000000000000000007323991cc800072f00000001a00136a6c,
  0x7e00028780001a0013726d,
  0x1500a8000e6873439a1cd0e680000000000e6600001f80001a00137a6e,
  0x7e03f01f80fc0000000000000000000000000000073539a9cd400008900000001a0013826f,
  0x7e03f01f9cc40000000000000000000000000000073639b1cd800072f00000001a00138a70,
  0x7e34f1a78d3c00000000000000000000000000000513289944c0004f500000001a00139271,
  0x20d091000041a122107883841a00000000003fc00010600001a00139a72,
  0x20d08e800041a11d107886041a000000000007800010b00001a0013a273,
  0xa2c00039b80009a0013aa74,
  0xa2c73739b9cdc0000000000000000000000000000035f1af8d7c00073800000009a0013b275,
  0xa2c51628b14580000000000000000000000000000051828c146000051700000009a0000600b,
  0xa2c00028b00009a00012824,
  0x51828c0000a3051828c1460a3000000000006b800028b00009a0000700d,
  0xa3051828c0000a3051828c1460a3000000000006b800028b00009a00021041,
  0x73928c0000e7251839c9460e7200000000006b80001ad80009a0013ba76,
  0x7e34f1a78d3c0000000000000000000000000000052029014800004f500000001a0013c277,
  0x7e208104081c00000000000000000000000000000206103081800020500000001a0013ca78,
  0xf007e00000000009f04f83909cd49f073a27c13e09f0000000000000008900000001a0013d279,
  0x723391000041a122107883841a00000000003fc00010600001a0013da7a,
  0x723391000041a122107883841a00000000003fc00010900001a0013e27b,
  0x20d08e800041a11d107886041a0000000000e7600010b00001a0013ea7c,
  0x7e03f01f9cf80000000000000000000000000000073d39e9cf400073c00000001a0013f27d,
  0x1500a800002a01500a805402a000000000007800039f80001a0013fa7e,
  0x1500a800002a01500a805402a00000000000780003a000001a0014027f,
  0x12c09604b0258000000000000000000000000000007413a09d0400009e00000003c92124247,
  0x3a100003c92524a48,
  0x12c222111088400000000000000000000000000000220110088000074300000003ca0525280,
  0x7453a2000003e04f00f813c03e000000000009800002980003ca0925a81,
  0x1f00f000003e01e00f807803e00000000000980003a300003ca0d26282,
  0x7453a2000003e04f00f813c03e00000000000980003a300003ca1126a83,
  0x7493a50000e9274a3a49d28e920000000000e900003a380003ca1527284,
  0x74d3a60000e9274b3a49d2ce920000000000e900003a380003ca1927a85,
  0xa104c0000142098050826014200000000000980003a300003ca1d26286,
  0x7493a58000e9274b3a49d2ce920000000000e900003a380003ca2128287,
  0x1f029000003e05200f814803e00000000000980003a300003ca2528a88,
  0x1f027800003e04f00f813c03e00000000000980003a300003ca2928a89,
  0x12c22211108880000000000000000000000000000074e3a71d3800021f00000003ca2d2928a,
  0x1f029000003e05200f814803e00000000000980003a780003ca3129a8b,
  0x1f027800003e04f00f813c03e00000000000980003a780003ca3529a8c,
  0x7453a2000003e04f027013403e000000000043a00010e00003ca392a28d,
  0x7453a2000003e04f027013403e000000000043a00011180003ca3d2aa8e,
  0x12c0001bc00003ca412b28f,
  0x22d09c000045a1383a91d4445a00000000000980003a800003ca452ba90,
  0xea609804c000013009804c0260130000000000009800004b00003c9612c257,
  0x9804c00001300981bd8dec13000000000000980001bd00003c9652ca58,
  0x12c228114089c00000000000000000000000000000226113089800075400000003ca492d291,
  0x13012c0000000000a705383ab14e0a7075529c14e0a70000000000000009e00000003c96d2da5a,
  0x7583ab800045a13d11684f445a000000000009800011a80003ca4d2e292,
  0x22d09c000045a13811684e045a00000000000980003ac80003ca512ea93,
  0x7583ab800045a13d11684f445a00000000000980003ac80003ca552f294,
  0x75b3ae0000eb675c3ad9d70eb60000000000e900003ad00003ca592fa95,
  0x75f3af0000eb675d3ad9d74eb60000000000e900003ad00003ca5d30296,
  0x38c04c00007180981c6026071800000000000980003ac80003ca6130a97,
  0x75b3ae8000eb675d3ad9d74eb60000000000e900003ad00003ca6531298,
  0x12c228114089c00000000000000000000000000000226113089800022500000003ca6931a99,
  0x22d11a000045a23411688d045a00000000000980003ac80003ca6d3229a,
  0x22d09e800045a13d11684f445a00000000000980003ac80003ca7132a9b,
  0x12c22811408a0000000000000000000000000000007613b09d8400076000000003ca753329c,
  0x22d11a000045a23411688d045a00000000000980003b100003ca7933a9d,
  0x22d09e800045a13d11684f445a00000000000980003b100003ca7d3429e,
  0x12c0002a500003c9a534a68,
  0x9804c0000ec67633b19d8cec600000000006e400004b00003c9a935269,
  0x12c09604b02580000000000000000000000000000053829c14e000009e00000003c9ad35a6a,
  0x12c09604b1d98000000000000000000000000000007653b29d9400076400000003c9b13626b,
  0x12c09604b1d98000000000000000000000000000007673b39d9c00076400000003c9b536a6c,
  0x12c0002a780003c9b93726d,
  0x9804c0000ed27693b49da4ed20000000000ed000004b00003c9bd37a6e,
  0x12c09604b02580000000000000000000000000000076a3b51da800009e00000003c9c13826f,
  0x12c09604b1d980000000000000000000000000000076b3b59dac00076400000003c9c538a70,
  0x12c3781bc0de0000000000000000000000000000005532a9954c00053500000003ca813929f,
  0x22d09e800045a13d11788b845a000000000043a00011600003ca8539aa0,
  0x22d09c000045a13811788e045a000000000009800011b00003ca893a2a1,
  0xaac0003b60002bca8d3aaa2,
  0xaac76c3b61db0000000000000000000000000000003881c40e2000076d0000002bca913b2a3,
  0xaac5562ab1558000000000000000000000000000005582ac15600005570000002bc0300600b,
  0xaac0002ab0002bc09412824,
  0x5582ac0000ab05582ac1560ab0000000000070a0002ab0002bc0380700d,
  0xab05582ac0000ab05582ac1560ab0000000000070a0002ab0002bc10821041,
  0x76e2ac0000edc5583b71560edc000000000070a0001c20002bca953baa4,
  0x12c3781bc0de0000000000000000000000000000005602b0158000053500000003ca993c2a5,
  0x12c228114089c00000000000000000000000000000226113089800022500000003ca9d3caa6,
  0x13012c0000000000a705383ab1da8a7076f29c14e0a70000000000000009e00000003c9e93d279,
  0x7583ab800045a13d11788b845a000000000043a00011600003caa13daa7,
  0x7583ab800045a13d11788b845a000000000043a00011900003caa53e2a8,
  0x22d09c000045a13811788e045a0000000000ee000011b00003caa93eaa9,
  0x12c09604b1dcc000000000000000000000000000007723b91dc800077100000003c9f93f27d,
  0x9804c000013009804c026013000000000000980003ba00003c9fd3fa7e,
  0x9804c000013009804c026013000000000000980003ba80003ca014027f,
  0x9804c000013009811d08e8130000000000043a0003bb00003c2704e09b,
  0x9804c000013009811d08e8130000000000043a0003bb00003c2784f09d,
  0x12c77a3bd1de4000000000000000000000000000007783bc1de000077700000003c27c4f89e,
  0x9804c000013009811d08e8130000000000043a0003bd80003c2805009f,
  0x12c5722b915c8000000000000000000000000000005712b895c400077c00000003c284508a0,
  0x12c7803c01dfc0000000000000000000000000000077e3bf1df800077d00000003c288510a1,
  0x7863c28000f045733c21e0cf04000000000043a0003c080003c290520a3,
  0x7823c48000f047893c21e20f04000000000043a0003c380003c294528a4,
  0x7863c28000f045733c21e0cf04000000000043a0003c380003c298530a5,
  0x7823c48000f047893c21e20f04000000000043a0003c080003c29c538a6,
  0x7823c48000f047893c11e24f0400000000000980003c500003c2a0540a7,
  0x7863c28000f045733c115ccf0400000000000980003c500003c2a4548a8,
  0x12c0002b900003c2a8550a9,
  0x7822b70000f0456e3c21e30f04000000000046e0003c580003c2ac558aa,
  0x12c5722b915c8000000000000000000000000000005732b995cc00077c00000003c2b0560ab,
  0x7822b70000f0456e3c115b8f0400000000000980003c500003c2b4568ac,
  0x12c0002b900003c2b8570ad,
  0x7822b70000f0456e3c21e30f04000000000043a0003c080003c2bc578ae,
  0x12c3981cc0e60000000000000000000000000000005732b995cc00057400000003c2c0580af,
  0xe024412209100000000000000000000000000000057c2be15f000039c00000002c2d8898b5,
  0x7923c88000f1c0b13c81e3cf1c00000000000da0003c680002c06ccb81a,
  0x78e05a0000f1c0b43c81e4cf1c00000000000da0003c680002c068cc019,
  0x7943c880000be0b102f82c40be00000000000da00005a80002c06ccc81a,
  0x5f02f00000be05e3cb1e540be00000000000da00012300002c0e0cd037,
  0x5f02f00000be05e3cc9e600be00000000000da0003cb80002c0e0cd837,
  0x78e02f0000f342413cd891cf34000000000033000012300002c0e0ce037,
  0xe05842c216100000000000000000000000000000079d3ce9e7400079c00000002c2d8ce8b5,
  0x7a33d10000f3e2543d09e80f3e0000000000cae0003cf00002c06ccf81a,
  0x79f1d88000f3e3b13d09e90f3e0000000000cae0003cf00002c068d0019,
  0x7a53d100007542541d5095075400000000000da0001d900002c06cd081a,
  0xe00002c200002c2d0d10b3,
  0x3aa127800075424f3d41e9c75400000000000da0003d300002c0e0d1837,
  0xe05842c216100000000000000000000000000000025412a095000079c00000002c2d8d20b5,
  0x3aa127800075424f3d59ea875400000000000da0003d480002c0e0d2837,
  0xe00003d600002c198d5865,
  0x3aa1278000f5a24e3d68938f5a00000000003300001d900002c0e0d6037,
  0xe05842c21610000000000000000000000000000007ae3d71eb800058200000002c188d6861,
  0xe05842c216100000000000000000000000000000025412a095000058200000002c188d7061,
  0xe05892c496240000000000000000000000000000025612b095800059300000002c0f0d783b,
  0xe07b03d81ec00000000000000000000000000000058e2c716380007af00000002c0f0d803b,
  0x58c2c70000b1858e2c61638b1800000000000da0002c580002c06cd881a,
  0x58c3d88000b187b12c61ec4b1800000000000da0002c580002c068d9019,
  0x58c2c68000b1858d2c61634b1800000000000da0002c580002c0e0d9837,
  0xe00003d900002c198da065,
  0x79f1278000f6824e3da8930f680000000000cec0003d980002c0e0da837,
  0xe05842c21610000000000000000000000000000007b63db1ed800058200000002c188db061,
  0x3aa12a00007542541d5095075400000000000da00003800002c194db864,
  0xe00002c200002c198dc065,
  0x4c22611308984000000000000000000000000000005992cc966400026d00000000c7600600b,
  0x4c22611309ee4000000000000000000000000000007b83dc1ee00007b700000000c7640600b,
  0x5c44c2000000000032a1950ca9ef4f787bb3dd1ee8f74000000000000026d00000000c76813826,
  0x1950ca800032a195132099032a0000000000f7e0003df00000c76c0700d,
  0x1950ca800032a195132099032a0000000000f7e0003e000000c7700700d,
  0x1950ca800032a195132099032a0000000000f840003e080000c7740700d,
  0x4c20003e180000c77812824,
  0x1950ca800032a195132099032a0000000000f7e0003df00000c77c0700d,
  0x4c22611308984000000000000000000000000000007c43e21f1000026d00000000c7800600b,
  0x4c20003e280000c78412824,
  0x1950ca800032a195133899c32a0000000000f8e0003e300000c7880700d,
  0x4c22611308984000000000000000000000000000007c83e41f2000026d00000000c78c0600b,
  0x5c44c2000000000032a1950ca968832a7c90ca865432a000000000000026d00000000c79013826,
  0x1950ca800032a195133899c32a0000000000f8e0003e300000c7940700d,
  0x1950ca800032a195133899c32a00000000002e200013300000c7980700d,
  0x1950ca800032a195133899c32a0000000000f8e0003e300000c79c0700d,
  0x4c20001e280000c7a012824,
  0xf941950ca800032a1950ca865432a00000000002e200013080000c7a486841,
  0x1950ca800032a1953e61f3032a00000000002e20003e580000c7a84e80d,
  0x4c226c13609ac0000000000000000000000000000026a13509a800026900000000c7ac8700b,
  0x5c44c20000000000b4c5a63e71698b4c7cd2d31698b4c000000000000026d00000000c7b087826,
  0x7d03e780002e41670b9059c2e400000000002e20000b800000c7b40700d,
  0x7d03e780002e41670b9059c2e400000000002e200013980000c7b81800d,
  0x7d23e98000fa47d33e91f4cfa400000000002e20003e880000c7bc0700d,
  0x7d63ea8000fa47d43e91f50fa400000000002e20003e880000c7c00700d,
  0x7d23ea0000fa47d43e91f50fa400000000002e20003e880000c7c40700d,
  0x4c226c13609ac0000000000000000000000000000026a13509a80007d700000000c7c81780b,
  0x1720b680002e416d0b905b42e400000000002e200013980000c7cc1800d,
  0x1720b380002e41670b9059c2e400000000002e200013980000c7d01800d,
  0x4c226c13609b0000000000000000000000000000007d93ec9f640007d800000000c7d40600b,
  0x1720b680002e416d0b905b42e400000000002e20003ed00000c7d80700d,
  0x1720b380002e41670b9059c2e400000000002e20003ed00000c7dc0700d,
  0x4c20003ed80000c7e412824,
  0x4c27db3ed9f6c000000000000000000000000000003ca1e50f280007dc00000000c7e80600b,
  0x7dd0ca8000fba1953ee8654fba00000000002e20001e380000c7ec0700d,
  0x4c23c51e28f14000000000000000000000000000005ba2dd16e80005a400000000c7f00600b,
  0x4c226c13609ac0000000000000000000000000000026a13509a80007d700000000c7f48700b,
  0x7d03e780002e41670b9059c2e400000000002e200013980000c7f81800d,
  0x17206000002e40c00b903002e40000000000fbc0000b800000c7fc0700d,
  0x4c25bb2dd96ec0000000000000000000000000000027713b89dc0007df00000000c8000600b,
  0x4c20002dd80000c80412824,
  0x27513b80004ea27713a89dc4ea00000000002e200013080000c8080700d,
  0x4c20003f000000c80c12824,
  0x4c27e03f01f80000000000000000000000000000003d41ea0f500007e100000000c8100600b,
  0x7e20ca8000fc41953f10654fc400000000002e20001e880000c8140700d,
  0x4c20003f180000c81888024,
  0x7e60600000fc87e53f21f94fc800000000002e20000b800000c81c8880d,
  0x4c23c51e28f14000000000000000000000000000007e73f39f9c0003c300000000c8208900b,
  0x4c23c51e28f14000000000000000000000000000007e83f41fa00003c300000000c3608980b,
  0x4c226c13609ec000000000000000000000000000007e93f49fa400026900000000c8248700b,
  0x1720b380002e41670b9059c2e400000000002e200013e00000c8281800d,
  0x4c226c13609ec000000000000000000000000000007ea3f51fa800026900000000c82c8a00b,
  0x4c226c13609ec000000000000000000000000000007e93f49fa40007d700000000c8301780b,
  0x1720b680002e416d0b905b42e400000000002e200013e00000c8341800d,
  0x1720b380002e41670b9059c2e400000000002e200013e00000c8381800d,
  0x4c226c13609ec000000000000000000000000000007e93f49fa40007d700000000c83c8700b,
  0x4c20001f380000c8408a824,
  0x4c20003f580000c8448b024,
  0x7ef1f18000fda7ee3f69fb8fda0000000000fd80002ef00000c8488b80d,
  0x4c27f23f91fc8000000000000000000000000000007f13f89fc40007f000000000c84c8c00b,
  0x4c27f23f91fc8000000000000000000000000000007f33f99fcc0007f000000000c8508c80b,
  0x1950ca800032a1953fa9fd432a00000000002e20003fa00000c4688d00d,
  0xfec1950ca800032a1953fa9fd432a00000000002e20003fa00000c8548d841,
  0x1950ca800032a1953fc1fe032a00000000002e20003fb80000c8588e00d,
  0x4c27fc3fe1fec000000000000000000000000000007fa3fd1fe80007f900000000c85c8e80b,
  0x5d52ec0000baa5d82ea9760baa00000000002e20002ef00000c8608f00d,
  0x5d51f18000baa3e32ea8f8cbaa00000000002e20003fe80000c8648f80d,
  0x5d52ec0000baa5d82ea9760baa00000000002e20003fe80000c8689000d,
  0x5d51f18000baa3e32ea8f8cbaa00000000002e20002ef00000c86c5680d,
  0x7ff4000000ffe8003ffa000ffe00000000002e20003ff00000c8709080d,
  0x7ff4008000ffe8013ffa004ffe00000000002e20003ff00000c8749100d,
  0x4c27fc3fe201000000000000000000000000000000803401a00c00080200000000c8789180b,
  0x8050ca800100a195402865500a00000000002e20003fe80000c87c9200d]

def splitStates3 : List Nat := [
  0x8050ca800100a195402865500a00000000002e20002ef00000c8809280d,
  0x4c2807403a01c000000000000000000000000000005d82ec176000080600000000c8849300b,
  0x4c27fc3fe1fec000000000000000000000000000007fa3fd1fe800080800000000c8889380b,
  0x5c44c2000000000032a1950caa02501280a404a025012000000000000026d00000000c4a094026,
  0x5d52ee8000baa5dd2ea9774baa00000000002e20003fe80000c88c9480d,
  0x5d52ec0000baa5d82ea9760baa00000000002e20003fe80000c8909000d,
  0x4c27fc3fe1ff00000000000000000000000000000080c406203000080b00000000c8949300b,
  0x5d52ee8000baa5dd2ea9774baa00000000002e200040680000c8985400d,
  0x5d52ec0000baa5d82ea9760baa00000000002e200040680000c89c8f00d,
  0x4c23e71f38f9c000000000000000000000000000005e82f417a00005cc00000000c8a05600b,
  0x4c27fc3fe1fec000000000000000000000000000007fa3fd1fe800080800000000c8a48e80b,
  0x5d51f18000baa3e32ea8f8cbaa0000000000fbc0002ef00000c8a85680d,
  0x4c20001f380000c8ac57024,
  0x4c23c51e28f14000000000000000000000000000005ee2f717b80005a400000000c8b02a80b,
  0x5c44c2000000000032a1950caa03c32a80e0ca865432a000000000000026d00000000c26c4d826,
  0x1720b380002e4167409a0482e4000000000102200040800000c8b44e00d,
  0x1720b680002e416d409a0502e4000000000102200040800000c8b84e00d,
  0x17206000002e40c040ba0582e400000000002e200040a80000c8bc4e80d,
  0x17206000002e40c040ba0582e4000000000102200040c00000c8c04f00d,
  0x1720b680002e416d409a0502e4000000000102200040c80000c8c45000d,
  0x1720b380002e4167409a0482e4000000000102200040c80000c8c85000d,
  0x5ac2d58000b521672d50594b520000000000b500002d380000c8cc4e00d,
  0x5a90b68000b5216d2d505bcb520000000000b500002d380000c8d04e00d,
  0x5a90600000b520c02dc96bcb520000000000b500002dc00000c8d44f00d,
  0x5a90600000b520c040e206cb520000000000b5000040d00000c8d84f00d,
  0x4c23c51e28f14000000000000000000000000000005fb2fd97ec0005a400000000c8dc2a80b,
  0x1720b380002e416714b0a5c2e4000000000102200040e80000c8e04e00d,
  0x1720b680002e416d14b0a542e4000000000102200040f00000c8e45000d,
  0x1720b380002e416714b0a5c2e4000000000102200040f00000c8e85000d,
  0x1720b680002e416d14b0a542e4000000000102200040e80000c8ec4e00d,
  0x17206000002e40c014b207c2e400000000002e200014c00000c8f04e80d,
  0x17206000002e40c014b207c2e4000000000102200040e80000c8f44f00d,
  0x4c23e71f38f9c00000000000000000000000000000603301980c0005cc00000000c8f85080b,
  0x5c44c2000000000032a1950caa084ba28202e89744ba2000000000000026d00000000c28c51826,
  0x5da2ec8000baa5d8412208cbaa000000000102200041100000c8fc5200d,
  0x5d52ee8000baa5dd4122098baa000000000102200041280000c9005280d,
  0x5da2ec8000baa5d8412208cbaa000000000102200041280000c9045300d,
  0x5d52ee8000baa5dd4122098baa000000000102200041100000c9085380d,
  0x5d51f18000baa3e341220a0baa0000000000bc000041380000c90c5580d,
  0x5d51f18000baa3e341220a0baa000000000102200041100000c9105780d,
  0x4c200030380000c14c29824,
  0x1950ca8001052829414a0a50520000000000bd600013080000c1502a00d,
  0x4c226113089840000000000000000000000000000080f407a03c00026d00000000c1542a80b,
  0x4c226113089840000000000000000000000000000082a41520a800026d00000000c1582b00b,
  0x1950ca800105282941620b10520000000000bd600041580000c15c2b80d,
  0x4c200041680000c1602c024,
  0x834419800105e832418a0c105e0000000000bfc00041700000c1642c80d,
  0x4c283741ba0dc0000000000000000000000000000083641b20d800083500000000c1682d00b,
  0x4c283741ba0dc0000000000000000000000000000083841c20e000083500000000c16c2d80b,
  0x4c260d30698340000000000000000000000000000083a41d20e800083900000000c1702e00b,
  0x1950ca800032a195308065432a00000000002e200013080000c1742e80d,
  0x1950ca800032a1950ca865432a00000000002e200041d80000c1782f00d,
  0x4c23c51e28f140000000000000000000000000000061530a98540005a400000000c9142a80b,
  0x5c44c2000000000032a1950ca98c832a83c0ca865432a000000000000026d00000000c09c4d826,
  0x1720b380002e416742020fc2e4000000000107c00041e80000c9184e00d,
  0x1720b680002e416d42021042e4000000000107c00041e80000c91c4e00d,
  0x17206000002e40c0422210c2e400000000002e200042100000c5504e80d,
  0x17206000002e40c0422210c2e4000000000107c00042280000c5504f00d,
  0x4c2849424a12000000000000000000000000000000847423a11c00084600000000c2084f80b,
  0x1720b680002e416d42021042e4000000000107c00042500000c91c5000d,
  0x1720b380002e416742020fc2e4000000000107c00042500000c9185000d,
  0x17206000002e40c015621302e4000000000107c00042580000c1e44f00d,
  0x4c23c51e28f140000000000000000000000000000062031018800005a400000000c54c2a80b,
  0x1720b380002e41671560aac2e4000000000107c00042580000c20c4e00d,
  0x1720b680002e416d1560ab82e4000000000107c00042680000c1245000d,
  0x1720b380002e41671560aac2e4000000000107c00042680000c20c5000d,
  0x1720b680002e416d1560ab82e4000000000107c00042580000c1244e00d,
  0x17206000002e40c015621302e400000000002e200015780000c1e44e80d,
  0x4c262c31618b00000000000000000000000000000062b31598ac00084e00000000c54c5080b,
  0x4c2852429214400000000000000000000000000000850428214000084f00000000c2085100b,
  0x5c44c2000000000032a1950caa1550a6854429a14d0a6000000000000026d00000000c09c51826,
  0x85b42d00010ae62d42ca1610ae000000000107c00042b00000c20c5200d,
  0x85742f00010ae85e42ca1750ae000000000107c00042e00000c1245280d,
  0x85b42d00010ae62d42ca1610ae000000000107c00042e00000c20c5300d,
  0x85742f00010ae85e42ca1750ae000000000107c00042b00000c1245380d,
  0x85742f00010ae85e42ba1790ae00000000002e200042f80000c1245400d,
  0x85b42d00010ae62d42b98b50ae00000000002e200042f80000c20c5480d,
  0x4c200031600000c54455024,
  0x85731400010ae62842ca1890ae00000000010c200043000000c1e45580d,
  0x4c262c31618b00000000000000000000000000000062d31698b400084e00000000c54c5600b,
  0x85731400010ae62842b98a10ae00000000002e200042f80000c1e45680d,
  0x4c200031600000c3a457024,
  0x85731400010ae62842ca1890ae000000000107c00042b00000c1e45780d,
  0x4c241920c90640000000000000000000000000000062d31698b400062e00000000c2085800b,
  0x1950ca800032a19515a0ad032a000000000107c00043180000c0384e00d,
  0x1950ca800032a19515a0ad032a00000000002e200015980000c0384e80d,
  0x1950ca800032a19515a0ad032a000000000107c00043180000c0384f00d,
  0x4c2867433a19800000000000000000000000000000865432a19400086400000000c0304f80b,
  0x1950ca800032a19515a0ad032a000000000107c00043400000c0385000d,
  0x4c264032019000000000000000000000000000000063f31f98fc00086900000000c0305080b,
  0x4c286d436a1b00000000000000000000000000000086b435a1ac00086a00000000c0305100b,
  0x87343900010de641438a1c10de000000000107c00043700000c0385200d,
  0x86f43b00010de876438a1d50de000000000107c00043a00000c0385280d,
  0x87343900010de641438a1c10de000000000107c00043a00000c0385300d,
  0x86f43b00010de876438a1d50de000000000107c00043700000c0385380d,
  0x86f43b00010de876437a1d90de00000000002e200043b80000c0385400d,
  0x87343900010de64143799050de00000000002e200043b80000c0385480d,
  0x4c200032000000c09455024,
  0x86f31e00010de63c438a1e50de00000000010c200043c00000c0385580d,
  0x4c2640320190000000000000000000000000000000641320990400086900000000c0305600b,
  0x86f31e00010de63c43798f10de00000000002e200043b80000c0385680d,
  0x4c200032000000c09457024,
  0x86f31e00010de63c438a1e50de000000000107c00043700000c0385780d,
  0x4c2425212909400000000000000000000000000000641320990400064200000000c0305800b,
  0xe007003801c00000000000000000000000000000087a43d21e80000d300000002c0312400b,
  0xe02bf15f8af8000000000000000000000000000002bd15e8af400087b00000002c0312500b,
  0x87d43e000006003001800c006000000000000da00003800002c0392580d,
  0x30018000006003001800c006000000000000da00043f00002c0392600d,
  0x87d43e000006003001800c006000000000000da00043f00002c0392680d,
  0x8804408001100881440220510000000000000da00043f80002c0392700d,
  0x8844418001100882440220910000000000000da00043f80002c0392780d,
  0x8804410001100882440220910000000000000da00043f80002c0392800d,
  0x30018000006003001800c006000000000000da00043f00002c0392880d,
  0xe02bf15f8afc00000000000000000000000000000885442a2140002bc00000002c0312900b,
  0x30018000006003001800c006000000000000da00015f80002c0392980d,
  0x87d43e000006003003701b8060000000000057600015d00002c0392a00d,
  0x87d43e000006003003701b8060000000000057600016000002c0392a80d,
  0xe000021c80002c0952b024,
  0x2ca0d280005941a5444221c59400000000000da00044300002c0392b80d,
  0x1112030018000006003001800c006000000000000da00003800002c1092c041,
  0x30018000006003021e10f006000000000000da00021d80002c0392c80d,
  0xe02c51628b10000000000000000000000000000002c31618b0c00088a00000002c0312d00b,
  0x1b40e00000000000caa6554461954caa88b32a9954caa00000000000000d300000002c09d2d826,
  0x88e44680005941aa16506a859400000000000da00016900002c0392e00d,
  0x2ca0d280005941a5165069459400000000000da00044780002c0392e80d,
  0x88e44680005941aa16506a859400000000000da00044780002c0392f00d,
  0x8914490001122892448a24912200000000000da00044800002c0392f80d,
  0x89544a0001122893448a24d12200000000000da00044800002c0393000d,
  0x44c018000089803022600c089800000000000da00044780002c0393080d,
  0x8914498001122893448a24d12200000000000da00044800002c0393100d,
  0xe02c51628b10000000000000000000000000000002c31618b0c0002c200000002c0313180b,
  0x2ca16880005942d11650b4459400000000000da00044780002c0393200d,
  0x2ca0d500005941aa16506a859400000000000da00044780002c0393280d,
  0xe02c51628b140000000000000000000000000000089744ba25c00089600000002c0313300b,
  0x2ca16880005942d11650b4459400000000000da00044c00002c0393380d,
  0x2ca0d500005941aa16506a859400000000000da00044c00002c0393400d,
  0xe000033380002c09534824,
  0x30018000113289944ca265132000000000086600003800002c0393500d,
  0xe007003801c00000000000000000000000000000065532a99540000d300000002c0313580b,
  0xe007003822700000000000000000000000000000089b44da26c00089a00000002c0313600b,
  0xe007003822700000000000000000000000000000089d44ea27400089a00000002c0313680b,
  0xe000033600002c09537024,
  0x30018000113e89f44fa27d13e000000000113c00003800002c0393780d,
  0xe007003801c0000000000000000000000000000008a045022800000d300000002c0313800b,
  0xe00700382270000000000000000000000000000008a1450a28400089a00000002c0313880b,
  0xe043921c90e40000000000000000000000000000067033819c000065200000002c0313900b,
  0x2ca0d500005941aa1660b2c594000000000057600016480002c0393980d,
  0x2ca0d280005941a51660b5459400000000000da00016980002c0393a00d,
  0xe000045100002c0953a824,
  0xe08a245122880000000000000000000000000000044822411200008a300000002c0313b00b,
  0x8a4018000114803045200c114800000000000da00022280002c0393b80d,
  0xe043921c90e40000000000000000000000000000067933c99e400065200000002c0313c00b,
  0xe02c51628b10000000000000000000000000000002c31618b0c0002c200000002c0313c80b,
  0x1b40e00000000000caa6554462280caa8a532a9954caa00000000000000d300000002c09d3d026,
  0x88e44680005941aa1660b2c594000000000057600016480002c0393d80d,
  0x88e44680005941aa1660b2c594000000000057600016780002c0393e00d,
  0x2ca0d280005941a51660b54594000000000114c00016980002c0393e80d,
  0xe007003822a4000000000000000000000000000008a845422a00008a700000002c0313f00b,
  0x30018000006003001800c006000000000000da00045500002c0393f80d,
  0x30018000006003001800c006000000000000da00045580002c0394000d,
  0x12c00033f80003caac12aaa,
  0x9804c000115a8ad456a2b515a000000000115800004b00003cab0072ab,
  0x12c09604b0258000000000000000000000000000008ae45722b800009e00000003cab4062ac,
  0x9804c0000130098457a2bc130000000000009800022880003cab8072ad,
  0x116009804c0000130098457a2bc130000000000009800022880003cabc212ae,
  0x116209804c0000130098457a2bc130000000000009800022880003cac0072af,
  0x9804c0000130098459a2cc130000000000009800045900003cac4072b0,
  0x12c09604b22d8000000000000000000000000000008b545aa2d40008b400000003cac8062b1,
  0x13012c000000000116e8b745ca2dd16e8b845ba2dd16e000000000000009e00000003cacc13ab2,
  0x12c09604b22f0000000000000000000000000000008bb45da2ec0008ba00000003cad0062b3,
  0x12c09604b22d8000000000000000000000000000008b545aa2d40008b400000003cad4062b4,
  0x13012c000000000013009804c22f517e8be45ea2f517a000000000000009e00000003cad813ab5,
  0x12c09604b02580000000000000000000000000000068a3451a2800009e00000003cadc062b6,
  0x9804c000013009804c0260130000000000118000004b00003cae0072b7,
  0x12c09604b02580000000000000000000000000000068e3471a3800009e00000003cae4062b8,
  0x12c09604b0b74000000000000000000000000000002dc16e0b700002db00000003cae8062b9,
  0x13012c00000000008bc45e46111788bc8c122f11788bc000000000000009e00000003caec13aba,
  0x9804c000013009804c02601300000000000d4e00004b00003caf0072bb,
  0x118609804c000013009804c0260130000000000009800004b00003caf4212bc,
  0x9804c000013009804c0260130000000000009800046200003caf8ca2bd,
  0x12c09604b231c000000000000000000000000000008c646323180008c500000003cafc17abe,
  0x9804c000013009804c0260130000000000009800046400003cb00182bf,
  0xd2009804c00001300983491a48130000000000009800034880003cb04caac0,
  0x119209804c00001300983491a48130000000000009800034880003cb08cb2c1,
  0x8cb46600011968cc465a33119600000000005d400046500003cb0c072c2,
  0x8cb46680011968cd465a33519600000000005d400046500003cb10072c3,
  0x5e68cf467a33c0000000000000000000000000000069a34d1a680008ce00000013cb14062c4,
  0x69834d0000d3069a34c1a68d30000000000038800034b80013cb18072c5,
  0x6984680000d308d034c2340d30000000000038800034b80013cb1c072c6,
  0x69834c8000d3069934c1a64d30000000000038800034b80013cb20072c7,
  0x8d246980011a48d3469234d1a400000000005f200046880013cb24072c8,
  0x8d246a00011a48d446923511a400000000005f200046880013cb28072c9,
  0x12c00016f80003cb2c29aca,
  0x12c00046a80003c81812a05,
  0xf203d00011ac8d746b235d1ac000000000009800007880003c64407190,
  0x12c1cf0e7873c000000000000000000000000000002e71738b9c0001ce00000003c64806191,
  0x46c00003cb30002cb,
  0x46da36c00000000000011b400046c80003cb34002cc,
  0x8dc46e237000000000000003cb38002cd,
  0x8e66a43521a90000000000000000000000000000002ed1768bb40008dd00000023cb3c062ce,
  0x8e600035200023cb4012acf,
  0x2eb17680005d62ed1758bb45d600000000005d400023980023cb44072d0,
  0x13012c00000000011bc8de47023791bc8df46f23791bc000000000000009e00000003cb4813ad1,
  0x5e600023e00013cb4c12ad2,
  0x9026a93549aa4000000000000000000000000000002fc17e0bf00008e100000033cb50062d3,
  0x90200035480033cb5412ad4,
  0x2fa17e00005f42fc17d0bf05f400000000005f200024080033cb58072d5,
  0x12c2e61730b98000000000000000000000000000006b13589ac400046000000003c91489a44,
  0x8e747300011c60e8472a3911c6000000000009800047100003cb5ccbad6,
  0x8e307700011c60ee472a3a11c6000000000009800047100003cb60cc2d7,
  0x8e947300001e40e807903a01e4000000000009800007880003c540cc94f,
  0xf203d00001e407a475a3a81e4000000000009800017e80003cb64cd2d8,
  0xf203d00001e407a47723b41e4000000000009800047600003c550cd953,
  0xf203d00005fc30117f0c045fc00000000005c000007880003cb682a2d9,
  0x8e303d00011de3014780bfd1de00000000005c000017e80003cb6cce2da,
  0x12c6ba35d1ae8000000000000000000000000000008f247923c80008f100000003cb70ceadb,
  0x8f847b80011e849c47b23d51e80000000000a7400047980003cb74cfadc,
  0x8f425080011e84a147b23e51e80000000000a7400047980003cb78d02dd,
  0x8fa47b800093249c24c9270932000000000009800025100003cb7cd0ade,
  0x12c00035d00003cb80d12df,
  0x499185800093230b47ea3f0932000000000009800047d80003cb84d1ae0,
  0x12c6ba35d1ae80000000000000000000000000000049c24e12700008f100000003cb88d22e1,
  0x499185800093230b48023fc932000000000009800047f00003c5dcd2976,
  0x9804c000013009804c0260130000000000009800048080003cb8cd42e2,
  0x12c09604b241000000000000000000000000000000903481a40c00090200000003cb90d4ae3,
  0x9804c000013009804c0260130000000000009800048280003cb94d52e4,
  0x12c00048300003cb98d5ae5,
  0x499185800120e30a4838c2920e00000000005c000025100003cb9cd62e6,
  0x12c6ba35d1ae80000000000000000000000000000090848424200006b800000003cba0d6ae7,
  0x12c6ba35d1ae8000000000000000000000000000003101880c400006b800000003c850d7213,
  0x12c6cd366a428000000000000000000000000000003121890c4800090900000003cba4d7ae8,
  0xaac90c4862430000000000000000000000000000006c73639b1c00090b0000002bcba8d82e9,
  0x6c53638000d8a6c73629b1cd8a000000000070a0003620002bcbacd8aea,
  0x6c54868000d8a90d362a434d8a000000000070a0003620002bcbb0d92eb,
  0x6c53630000d8a6c63629b18d8a000000000070a0003620002bcbb4d9aec,
  0x12c00048700003cbb8da2ed,
  0x8f4185800122230a4890c21222000000000122000048780003cbbcdaaee,
  0x12c6ba35d1ae800000000000000000000000000000913489a44c0006b800000003cbc0db2ef,
  0x49924e000093249c24c9270932000000000009800004b00003cbc4dbaf0,
  0x12c00035d00003cbc8dc2f1,
  0x12c6ba35d1ae80000000000000000000000000000049c24e12700006b800000003cbccd72f2,
  0x12c00048300003cbd0d5af3,
  0x12c00048a00003cbd4dc2f4,
  0x499185800122a91648aa45922a000000000009800025100003cbd856af5,
  0x12c6cd3669b34000000000000000000000000000003101880c400006cc00000003cbdc932f6,
  0x12c1bc0de0c600000000000000000000000000000031718b8c5c00091700000003cbe0872f7,
  0xf203d00001e407a07901e81e4000000000009800018c80003cbe4182f8,
  0xf207400001e40e807903a01e4000000000009800018c80003cbe8182f9,
  0x1cd04c000039a0980e6826039a000000000009800018c80003cbec182fa,
  0x12c1bc0de0c600000000000000000000000000000031718b8c5c00091800000003cbf017afb,
  0xf207700001e40ee07903b81e4000000000009800018c80003cbf4182fc,
  0xf207400001e40e807903a01e4000000000009800018c80003cbf8182fd,
  0x12c1bc0de0c600000000000000000000000000000031718b8c5c00091800000003cbfc872fe,
  0x12c1bc0de0c600000000000000000000000000000091948ca46400091700000003cc008a2ff,
  0x12c1cf0e7a4700000000000000000000000000000091b48da46c00091a00000003cc0487300,
  0xf207700001e40ee07903b81e4000000000009800048e80003cc0818301,
  0x69634a80001e40e807903a01e4000000000009800048e80003cc0c18302,
  0x12c1cf0e78c88000000000000000000000000000003241920c9000032000000003cc1087303,
  0x12c1cf0e78c880000000000000000000000000000091e48f247800032000000003cc148a304,
  0xf207700001e40ee07903b81e4000000000009800019180003cc1818305,
  0x12c6cd366a48400000000000000000000000000000920490248000091f00000003cc1c8eb06,
  0x499185800093230b24c8c2c932000000000009800049100003cc208fb07,
  0x49924e000093249c24c9270932000000000009800049100003cc2490308,
  0x12c6cd366a49400000000000000000000000000000924492249000092300000003cc2891b09,
  0x6cb04c0000d960983658260d96000000000009800049100003cc2c9230a,
  0x12c6cd366a48400000000000000000000000000000920490248000091f00000003cc3093b0b,
  0x49925080009324a124c9284932000000000009800049100003cc3494b0c,
  0xe000026580002c7a0129e7,
  0xe032c1960cac0000000000000000000000000000032a1950ca800092600000002cc388730d,
  0x1080838000210107084041c21000000000000da00019680002cc3c1830e,
  0x1080f700002101ee08407b821000000000000da00019680002cc401830f,
  0x32f018000065e03019780c065e00000000000da00019680002cc4418310,
  0xe032c1960cac0000000000000000000000000000032a1950ca800092700000002c7d4179f4,
  0x1080f880002101f108407c421000000000000da00019680002c7d8181f5,
  0x1080f700002101ee08407b821000000000000da00019680002c7dc181f6,
  0xe032c1960cb000000000000000000000000000000929494a4a400092800000002c7d4061f4,
  0x1080f880002101f108407c421000000000000da00049500002c7d8071f5,
  0x1080f700002101ee08407b821000000000000da00049500002c7dc071f6,
  0xe032c1960cac0000000000000000000000000000032a1950ca800092700000002c7d4871f4,
  0xe000049580002c3a4880e8,
  0x92e083800125892d49624b525800000000000da0000f900002c1e488878,
  0xe04cb265932c0000000000000000000000000000092f497a4bc0004c900000002c3a8890e9,
  0xe04cb265932c0000000000000000000000000000093049824c00004c900000002c3a8898e9,
  0xe032c1960cac00000000000000000000000000000931498a4c400092600000002cc388a30d,
  0xe03311988cd80000000000000000000000000000033719b8cdc00033400000002c20887081,
  0x1080f880002101f108407c421000000000000da00019980002c12418048,
  0xe03311988cd80000000000000000000000000000093249924c800033400000002c2088a081,
  0xe000027100002c7a08a9e7,
  0xe000049980002c3a48b0e8,
  0x93626f000126893549a24d5268000000000086600038500002c1e48b878,
  0xe093949ca4e40000000000000000000000000000093849c24e000093700000002c3a88c0e9,
  0xe093949ca4e40000000000000000000000000000093a49d24e800093700000002c3a88c8e9,
  0xe093e49f24f40000000000000000000000000000093c49e24f000093b00000002c2088e881,
  0x7022718000e044e3381138ce0400000000000da00038500002c20c8f082,
  0x70226f0000e044de3811378e0400000000000da00049f80002c1e48f878,
  0x7022718000e044e3381138ce0400000000000da00049f80002c20c90082,
  0x9414a100012829424a0a50928200000000000da0004a000002c1e490878,
  0x9414a180012829434a0a50d28200000000000da0004a000002c20c91082,
  0xe093e49f2518000000000000000000000000000009454a2a51400094400000002c20891881,
  0x947018000128e0304a380c128e00000000000da00049f80002c1fc9207e,
  0x947018000128e0304a380c128e00000000000da00038500002c1fc9287e,
  0xe093e49f24f8000000000000000000000000000004e3271938c00094800000002c20893081,
  0xe093e49f24f40000000000000000000000000000093c49e24f000093b00000002c20893881,
  0x7023848000e047093811c24e0400000000000da00049f80002c12494848,
  0x1500a800002a01501e80f402a00000000003fc0000fe80001a00189311,
  0x9494a4a52400000000000001a00189b12,
  0x7e00010100001a0018a313,
  0x94b4a6000129694c4a5a53129600000000006b80004a500001a0018ab14,
  0x94b4a6800129694d4a5a53529600000000006b80004a500001a0018b315,
  0x7e03f01f80fc0000000000000000000000000000094e4a7253800008900000001a0018bb16,
  0x12a29504a825400000000000000000000000000000071738b9c5c00094f00000005a0018c317,
  0x1c512a200000000012a69534a9a54d2a69544a9a54d2a6000000000000095200000005a00013826,
  0x71538b8000e2a71738a9c5ce2a0000000000e2800038980005a0018cb18,
  0x7154aa8000e2a95538aa554e2a0000000000e2800038980005a0018d319,
  0x71538b0000e2a71638a9c58e2a0000000000e2800038980005a0018db1a,
  0x9584ac80012b09594ac25652b000000000012ae0004ab00005a0018e31b,
  0x9584ad00012b095a4ac25692b000000000012ae0004ab00005a0018eb1c,
  0x1500a80012b695b4ada56d2b6000000000007800001f80001a0018f31d,
  0x7e20810425740000000000000000000000000000095c4ae257000020500000001a0018fb1e,
  0x20d10a000041a214106885041a00000000000780004af00001a0019031f,
  0x20d091000041a122106848841a00000000000780004af00001a00190b20,
  0x1500a800002a01500a805402a00000000000780004af80001a00191321,
  0x7e0001a400001a00191b22,
  0xe3c01500a800002a0151a90d4802a00000000000780001a880001a00192323,
  0x12c001500a800002a0151a90d4802a00000000000780001a880001a00192b24,
  0x9624b180012c49634b1258d2c400000000006b80004b080001a00193325,
  0x9624b200012c49644b125912c400000000006b80004b080001a00193b26,
  0x7e3591aca59c000000000000000000000000000009664b3259800096500000001a00194327,
  0x12a29694b4a5a4000000000000000000000000000007283941ca000096800000005a00194b28,
  0x7263940000e4c7283931ca0e4c0000000000e2800039280005a00195329,
  0x7264b50000e4c96a39325a8e4c0000000000e2800039280005a00195b2a,
  0x7263938000e4c7273931c9ce4c0000000000e2800039280005a0019632b,
  0x96c4b680012d896d4b625b52d800000000012ae0004b580005a00196b2c,
  0x96c4b700012d896e4b625b92d800000000012ae0004b580005a0019732d,
  0x7e0004b780001a00197b2e,
  0x20d08e80012e09714b825c52e0000000000007800010a80001a0019832f,
  0x7e3591ac8d64000000000000000000000000000003501a80d4000036400000001a00198b30,
  0x1500a800002a0151a90d4802a00000000009f40004b900001a00199331,
  0x7e0004b980001a00199b32,
  0x1500a800002a0151a90d4802a00000000009f40004b900001a0019a333,
  0x7e03f01f80fc000000000000000000000000000009744ba25d000008900000001a0019ab34,
  0x1500a800002a0151aa8d5402a00000000012ec0004ba80001a0019b335,
  0xf007e000000000002a01500a9cd402a97700a805402a000000000000008900000001a0019bb36,
  0x1500a800002a0151aa8d5402a00000000012ec0004ba80001a0019c337,
  0x1500a800002a0151aa8d5402a00000000000780001aa00001a0019cb38,
  0x1500a800002a0151aa8d5402a00000000012ec0004ba80001a0019d339,
  0xa2c73739b9cdc0000000000000000000000000000035f1af8d7c00097800000009a0019db3a,
  0xa2c00039b80009a0019e33b,
  0x35d1af80006ba35f1ae8d7c6ba00000000006b800028b00009a0019eb3c,
  0x12f201500a800002a0151a90d4802a00000000000780001a880001a0019f33d,
  0xf007e00000000012f497a4be25e92f497b4bd25e92f4000000000000008900000001a0019fb3e,
  0x7e00039f00001a001a033f,
  0x1500a80012fc97e4bf25f92fc00000000012fa00001f80001a001a0b40,
  0x7e03f01f80fc0000000000000000000000000000097a4bd25e800008900000001a001a1341,
  0x7e03f01f9cc40000000000000000000000000000097f4bfa5fc00072f00000001a001a1b42,
  0x7e03f01f9cc4000000000000000000000000000009804c0260000072f00000001a001a2343,
  0x9804c000013009811d08e8130000000000043a0003bb00003cc4989311,
  0x9814c0a60400000000000003cc4d89b12,
  0x12c0001b500003cd158a344,
  0x9834c200013069844c1a611306000000000070a0004c100003cd198ab45,
  0x9834c280013069854c1a615306000000000070a0004c100003cd1d8b346,
  0x12c09d04e8274000000000000000000000000000009864c326180000a200000003cd218bb47,
  0x13129884c426200000000000000000000000000000074b3a59d2c00098700000017cd258c348,
  0x1d21312000000000131698b4c5a62d31698c4c5a62d316000000000000098a00000017c09c13826,
  0x7493a58000e9274b3a49d2ce920000000000e900003a380017cd298cb49,
  0x7494c68000e9298d3a4a634e920000000000e900003a380017cd2d8d34a,
  0x7493a50000e9274a3a49d28e920000000000e900003a380017cd318db4b,
  0x9904c880013209914c82645320000000000131e0004c700017cd358e34c,
  0x9904c900013209924c82649320000000000131e0004c700017cd398eb4d,
  0x1f00f00013269944c9a651326000000000009800002980003cd3d8f34e,
  0x12c09d04e82740000000000000000000000000000036f1b78dbc0000a200000003cd4089b4f,
  0x12c2281142658000000000000000000000000000009954caa65400022500000003cd458fb50,
  0x22d11a000045a23411688d045a00000000000980004cb80003cd4990351,
  0x22d09e800045a13d11684f445a00000000000980004cb80003cd4d90b52,
  0x9804c000013009804c026013000000000000980004cc00003cc8991321,
  0x12c0001b880003cd5191b53,
  0xea609804c00001300981bd8dec13000000000000980001bd00003cc9192323,
  0x133209804c00001300981bd8dec13000000000000980001bd00003cc9592b24,
  0x99b4ce000133699c4cda671336000000000070a0004cd00003cd5593354,
  0x99b4ce800133699d4cda675336000000000070a0004cd00003cd5993b55,
  0x12c3821c126800000000000000000000000000000099f4cfa67c00099e00000003cd5d94356,
  0x13129a24d126880000000000000000000000000000075d3ae9d740009a100000017cd6194b57,
  0x75b3ae8000eb675d3ad9d74eb60000000000e900003ad00017cd6595358,
  0x75b4d18000eb69a33ada68ceb60000000000e900003ad00017cd6995b59,
  0x75b3ae0000eb675c3ad9d70eb60000000000e900003ad00017cd6d9635a,
  0x9a54d3000134a9a64d2a69934a000000000131e0004d200017cd7196b5b,
  0x9a54d3800134a9a74d2a69d34a000000000131e0004d200017cd759735c,
  0x12c0004d400003cd7997b5d,
  0x22d09c00013529aa4d4a6a9352000000000009800011a80003cd7d9835e,
  0x12c3821c10e08000000000000000000000000000003791bc8de400038d00000003cd8198b5f,
  0x9804c00001300981bd8dec1300000000000a740004d580003ccc999331,
  0x12c0004d600003cccd99b32,
  0x9804c00001300981bd8dec1300000000000a740004d580003ccd19a333,
  0x12c09604b0258000000000000000000000000000009ad4d6a6b400009e00000003ccd59ab34,
  0x9804c00001300981bf0df8130000000000135e0004d700003ccd99b335,
  0x13012c000000000013009804c1da81309b004c0260130000000000000009e00000003ccdd9bb36,
  0x9804c00001300981bf0df8130000000000135e0004d700003cce19c337,
  0x9804c00001300981bf0df813000000000000980001be80003cce59cb38,
  0x9804c00001300981bf0df8130000000000135e0004d700003cce99d339,
  0xaac76c3b61db0000000000000000000000000000003881c40e200009b10000002bcd859db60,
  0xaac0003b60002bcd899e361,
  0x3861c4000070c3881c30e2070c000000000070a0002ab0002bcd8d9eb62,
  0x136409804c00001300981bd8dec13000000000000980001bd00003ccf99f33d,
  0x13012c00000000013669b34daa6cd3669b44d9a6cd366000000000000009e00000003ccfd9fb3e,
  0x12c0003b980003cd01a033f,
  0x9804c000136e9b74dba6dd36e000000000136c00004b00003cd05a0b40,
  0x12c09604b0258000000000000000000000000000009b34d9a6cc00009e00000003cd09a1341,
  0x12c09604b1d98000000000000000000000000000009b84dc26e000076400000003cd0da1b42,
  0x12c09604b1d98000000000000000000000000000009b94dca6e400076400000003cd11a2343,
  0x12c09604b0e48000000000000000000000000000003911c88e4400039000000003c4388710d,
  0x12c0003bd00003c4408810f,
  0x9bc04c00013749bb4dd26ed374000000000009800004b00003c44488910,
  0x12c09604b0258000000000000000000000000000009bd4dea6f400009e00000003c44889111,
  0x12c09604b0258000000000000000000000000000009be4df26f800009e00000003c44c89912,
  0x12c09604b0e48000000000000000000000000000009bf4dfa6fc00039000000003c4508a113,
  0x12c0002b900003c4548a914,
  0x12c0004e000003c4588b115,
  0x9c32b700013829c24e0a70938200000000006e40003c500003c45c8b916,
  0x12c9c64e32718000000000000000000000000000009c54e2a7140009c400000003c4608c117,
  0x12c9c64e32718000000000000000000000000000009c74e3a71c0009c400000003c4648c918,
  0x12c9cb4e5a728000000000000000000000000000009c94e4a7240009c800000003c4748e91c,
  0x7822b98000f045733c115ccf0400000000000980003c500003c4788f11d,
  0x7822b70000f0456e3c115b8f0400000000000980004e600003c47c8f91e,
  0x7822b98000f045733c115ccf0400000000000980004e600003c4809011f,
  0x9ce4e7800139c9cf4e7273d39c000000000070a0004e680003c48490920,
  0x9ce4e8000139c9d04e7274139c000000000070a0004e680003c48891121,
  0x12c9cb4e5a74c000000000000000000000000000009d24e927480009d100000003c48c91922,
  0x9d404c00013a80984ea02613a800000000000980004e600003c49092123,
  0x9d404c00013a80984ea02613a800000000000980003c500003c49492924,
  0x12c9cb4e5a72c000000000000000000000000000005732b995cc0009d500000003c49893125,
  0x12c9cb4e5a728000000000000000000000000000009c94e4a7240009c800000003c49c93926,
  0x7823c48000f047893c11e24f0400000000000980004e600003c4a494928,
  0xe03a21d10e84000000000000000000000000000003a01d00e800009d600000002c0f12503b,
  0x9d84eb80000be0b102f82c40be00000000000da00005a80002c06d2581a,
  0x5f02f00000be05e02f81780be00000000000da0004ec80002c0e126037,
  0x9d84eb80000be0b102f82c40be00000000000da0004ec80002c06d2681a,
  0x9db4ee00013b69dc4eda7713b600000000000da0004ed00002c0e127037,
  0x9df4ef00013b69dd4eda7753b600000000000da0004ed00002c06d2781a,
  0x14c01800002980300a600c029800000000000da0004ec80002c0ed2603a,
  0x9db4ee80013b69dd4eda7753b600000000000da0004ed00002c06d2801a,
  0x5f05a00000be0b402f82d00be00000000000da0004ec80002c06928819,
  0x5f05880000be0b102f82c40be00000000000da0004ec80002c06d2881a,
  0xe03a21d10e88000000000000000000000000000009e04f0278000039f00000002c0f12903b,
  0x5f05a00000be0b402f82d00be00000000000da0004f080002c06929819,
  0x5f05880000be0b102f82c40be00000000000da0004f080002c06d2981a,
  0x9d84eb80000be0b105802bc0be00000000005760001ce80002c06d2a01a,
  0x9d84eb80000be0b105802bc0be00000000005760001d180002c06d2a81a,
  0xe00002c200002c4a92b129,
  0x3aa127800075424f4f2278c75400000000000da0004f100002c0e12b837,
  0xe03a81d40e9c000000000000000000000000000003a61d30e980009e500000002c0f12d03b,
  0x9e74f300007542541d5095075400000000000da0001d900002c06d2e01a,
  0x3aa127800075424f1d5093c75400000000000da0004f400002c0e12e837,
  0x9e74f300007542541d5095075400000000000da0004f400002c06d2f01a,
  0x9ea4f580013d49eb4f527ad3d400000000000da0004f480002c0e12f837,
  0x9ee4f680013d49ec4f527b13d400000000000da0004f480002c06d3001a,
  0x5920180000b240302c900c0b2400000000000da0004f400002c0ed3083a,
  0x9ea4f600013d49ec4f527b13d400000000000da0004f480002c06d3101a,
  0xe03a81d40e9c000000000000000000000000000003a61d30e980003a500000002c0f13183b,
  0x3aa1d880007543b11d50ec475400000000000da0004f400002c06932019,
  0x3aa12a00007542541d5095075400000000000da0004f400002c06d3281a,
  0xe03a81d40ea0000000000000000000000000000009f04f827c00009ef00000002c0f13303b,
  0x3aa1d880007543b11d50ec475400000000000da0004f880002c06933819,
  0x3aa12a00007542541d5095075400000000000da0004f880002c06d3401a,
  0xe05842c21610000000000000000000000000000007ae3d71eb800079c00000002c2d9390b5,
  0x3aa12a00007542541d60eac75400000000005760001d480002c06d3981a,
  0x3aa127800075424f1d60ed075400000000000da0001d980002c0e13a037,
  0xe00004f900002c1993a865,
  0xe09f24f927c80000000000000000000000000000058e2c716380009f300000002c1893b061,
  0x9f401800013e80304fa00c13e800000000000da0002c580002c0ed3b83a,
  0xe05842c21610000000000000000000000000000007b63db1ed800079c00000002c2d93c0b5,
  0xe03a81d40e9c000000000000000000000000000003a61d30e980003a500000002c0f13c83b,
  0x9e74f300007542541d60eac75400000000005760001d480002c06d3d81a,
  0x9e74f300007542541d60eac75400000000005760001d780002c06d3e01a,
  0x3aa127800075424f1d60ed0754000000000114c0001d980002c0e13e837,
  0x4c20003dc80000caac12824,
  0x1950ca80013ec9f64fb27d93ec00000000013ea00013080000cab00700d,
  0x4c22611308984000000000000000000000000000009f74fba7dc00026d00000000cab40600b,
  0x1950ca800032a1954fc27e032a00000000002e20002ca80000cab80700d,
  0x13f21950ca800032a1954fc27e032a00000000002e20002ca80000cabc21041,
  0x1950ca800032a1954fc27e032a00000000002e20002ca80000cac00700d,
  0x1950ca800032a1954fda7ec32a00000000002e20004fd00000cac40700d,
  0x4c2261130a7f8000000000000000000000000000009fd4fea7f40009fc00000000cac80600b,
  0x5c44c200000000013fe9ff500a7fd3fea004ffa7fd3fe000000000000026d00000000cacc13826,
  0x4c2261130a81000000000000000000000000000000a03501a80c000a0200000000cad00600b,
  0x4c2261130a7f8000000000000000000000000000009fd4fea7f40009fc00000000cad40600b,
  0x5c44c2000000000032a1950caa81540ea06502a81540a000000000000026d00000000cad813826,
  0x4c22611308984000000000000000000000000000007c43e21f1000026d00000000cadc0600b,
  0x1950ca800032a1950ca865432a000000000141000013080000cae00700d,
  0x4c22611308984000000000000000000000000000007c83e41f2000026d00000000cae40600b,
  0x4c22611308ef0000000000000000000000000000003bb1dd8eec0003ba00000000cae80600b,
  0x5c44c20000000000b445a25051688b44a092d11688b44000000000000026d00000000caec13826,
  0x1950ca800032a1950ca865432a0000000000fbc00013080000caf00700d,
  0x14161950ca800032a1950ca865432a00000000002e200013080000caf421041,
  0x1950ca800032a1950ca865432a00000000002e200050600000caf8ca00d,
  0x4c2261130a83c00000000000000000000000000000a0e5072838000a0d00000000cafc1780b,
  0x1950ca800032a1950ca865432a00000000002e200050800000cb001800d,
  0xf941950ca800032a1953e61f3032a00000000002e20003e580000cb04ca841,
  0x1950ca800032a1953e61f3032a00000000002e20003e580000cb08cb00d,
  0xa125098001424a13509284d42400000000002e200050880000cb0c0700d,
  0xa1250a0001424a14509285142400000000002e200050880000cb100700d]

def splitStates4 : List Nat := [
  0x4c2a1650b2858000000000000000000000000000007d43ea1f50000a1500000000cb140600b,
  0x7d23ea0000fa47d43e91f50fa400000000002e20003e880000cb180700d,
  0x7d250b8000fa4a173e9285cfa400000000002e20003e880000cb1c0700d,
  0x7d23e98000fa47d33e91f4cfa400000000002e20003e880000cb200700d,
  0xa1950d0001432a1a50ca86943200000000002e200050c00000cb240700d,
  0xa1950d8001432a1b50ca86d43200000000002e200050c00000cb280700d,
  0x4c20001df00000cb2c29824,
  0x4c200050e00000c81812824,
  0x172060000143aa1e50ea87943a00000000002e20000b800000c6440700d,
  0x4c227f13f89fc000000000000000000000000000003c61e30f1800027e00000000c6480600b,
  0x4c27db3ed9f6c000000000000000000000000000003ca1e50f28000a1f00000000cb3c0600b,
  0x4c20003ed80000cb4012824,
  0x3c81e500007903ca1e40f2879000000000002e200013080000cb440700d,
  0x5c44c20000000001440a205112881440a215102881440000000000000026d00000000cb4813826,
  0x4c20002dd80000cb4c12824,
  0x4c27e03f01f80000000000000000000000000000003d41ea0f50000a2300000000cb500600b,
  0x4c20003f000000cb5412824,
  0x3d21ea00007a43d41e90f507a400000000002e200013080000cb580700d,
  0x4c23c51e28f14000000000000000000000000000007e83f41fa00005a400000000c9148980b,
  0xa29514000144a167513a89944a00000000002e200051200000cb5ccb80d,
  0xa250b6800144a16d513a8a944a00000000002e200051200000cb60cc00d,
  0xa2b51400002e41670b9059c2e400000000002e20000b800000c540cc80d,
  0x17206000002e40c0516a8b02e400000000002e20001ea80000cb64cd00d,
  0x17206000002e40c051828bc2e400000000002e200051700000c550cd80d,
  0x17206000007ac3d91eb0f647ac000000000077e0000b800000cb682a00d,
  0xa2506000014623d95190f5d462000000000077e0001ea80000cb6cce00d,
  0x4c27f23f91fc800000000000000000000000000000a3451a28d0000a3300000000cb70ce80b,
  0x5c44c2000000000032a1950caa8d832aa350ca865432a000000000000026d00000000c678cf026,
  0xa3d51e00014725d851da8e9472000000000147000051b80000cb74cf80d,
  0xa392ee80014725dd51da8f9472000000000147000051b80000cb78d000d,
  0xa3f51e0000baa5d82ea9760baa00000000002e20002ef00000cb7cd080d,
  0x4c20003f900000cb80d1024,
  0x5d51f18000baa3e35212904baa00000000002e200052000000cb84d180d,
  0x4c27f23f91fc8000000000000000000000000000005d82ec1760000a3300000000cb88d200b,
  0x5d51f18000baa3e3522a910baa00000000002e200052180000c5dcd280d,
  0x4c2261130a92000000000000000000000000000000a47523a91c000a4600000000c698d300b,
  0x1950ca800032a1950ca865432a00000000002e200052480000c69cd380d,
  0x1950ca800032a1950ca865432a00000000002e200052500000cb8cd400d,
  0x4c2261130a93400000000000000000000000000000a4c5262930000a4b00000000cb90d480b,
  0x1950ca800032a1950ca865432a00000000002e200052700000cb94d500d,
  0x4c200052780000cb98d5824,
  0x5d51f180014a03e25280f894a0000000000077e0002ef00000cb9cd600d,
  0x4c27f23f91fc800000000000000000000000000000a51528a9440007f000000000cba0d680b,
  0x4c27f23f91fc8000000000000000000000000000003e81f40fa00007f000000000c850d700b,
  0x4c2807403a94c000000000000000000000000000003ea1f50fa8000a5200000000cba4d780b,
  0x4c2a5552aa95400000000000000000000000000000801400a004000a5400000000cba8d800b,
  0x7ff4008000ffe8013ffa004ffe00000000002e20003ff00000cbacd880d,
  0x7ff52b0000ffea563ffa958ffe00000000002e20003ff00000cbb0d900d,
  0x7ff4000000ffe8003ffa000ffe00000000002e20003ff00000cbb4d980d,
  0x4c200052b80000cbb8da024,
  0xa391f180014b43e252d8f814b400000000014b200052c00000cbbcda80d,
  0x4c27f23f91fc800000000000000000000000000000a5c52e29700007f000000000cbc0db00b,
  0x5d52ec0000baa5d82ea9760baa00000000002e200013080000cbc4db80d,
  0x4c20003f900000cbc8dc024,
  0x4c27f23f91fc8000000000000000000000000000005d82ec17600007f000000000cbccd700b,
  0x4c200052780000cbd0d5824,
  0x1950ca800032a19552f297832a00000000002e200052e80000c6e4dc80d,
  0x14be1950ca800032a19552f297832a00000000002e200052e80000c6e8dd041,
  0x4c200053000000cbd4dc024,
  0x5d51f180014c2a62530a9894c200000000002e20002ef00000cbd85680d,
  0x4c2807403a01c000000000000000000000000000003e81f40fa000080600000000cbdc9300b,
  0x14c61950ca800032a1950ca865432a00000000002e200013080000c43486841,
  0x1950ca800032a195201100832a00000000002e200020080000c2744e80d,
  0x4c226c1360fc0000000000000000000000000000003ef1f78fbc000a6400000000cbe08700b,
  0x5c44c2000000000101e80f533203d01ea65407a03d01e000000000000026d00000000c43c87826,
  0x17206000002e40c00b903002e400000000002e20001f880000cbe41800d,
  0x1720b380002e41670b9059c2e400000000002e20001f880000cbe81800d,
  0x27d0ca80004fa19513e86544fa00000000002e20001f880000cbec1800d,
  0x4c226c1360fc0000000000000000000000000000003ef1f78fbc000a6700000000cbf01780b,
  0x1720b680002e416d0b905b42e400000000002e20001f880000cbf41800d,
  0x1720b380002e41670b9059c2e400000000002e20001f880000cbf81800d,
  0x4c226c1360fc0000000000000000000000000000003ef1f78fbc000a6700000000cbfc8700b,
  0x4c226c1360fc000000000000000000000000000000a6853429a0000a6400000000cc008a00b,
  0x4c227f13fa9ac00000000000000000000000000000a6a53529a8000a6900000000cc048700b,
  0x1720b680002e416d0b905b42e400000000002e200053600000cc081800d,
  0x7d03e780002e41670b9059c2e400000000002e200053600000cc0c1800d,
  0x4c227f13f8fe8000000000000000000000000000003fc1fe0ff00003f800000000cc108700b,
  0x4c227f13f8fe800000000000000000000000000000a6d536a9b40003f800000000cc148a00b,
  0x1720b680002e416d0b905b42e400000000002e20001fd80000cc181800d,
  0x14dc1950ca800032a1953fa9fd432a00000000002e20003fa00000c46c8d841,
  0x1950ca800032a19553829c032a00000000002e200053780000c4708e00d,
  0x4c2807403a9cc00000000000000000000000000000a7253929c8000a7100000000cc1c8e80b,
  0x5d51f18000baa3e32ea8f8cbaa00000000002e200053a00000cc208f80d,
  0x5d52ec0000baa5d82ea9760baa00000000002e200053a00000cc249000d,
  0x4c2807403a9dc00000000000000000000000000000a7653b29d8000a7500000000cc289180b,
  0x8050ca800100a195402865500a00000000002e200053a00000cc2c9200d,
  0x4c2807403a9cc00000000000000000000000000000a7253929c8000a7100000000cc309380b,
  0x5d52ee8000baa5dd2ea9774baa00000000002e200053a00000cc349480d,
  0x1950ca800032a195201100832a000000000102200053c00000c2704e00d,
  0x1950ca800032a195201100832a000000000102200053c00000c2784f00d,
  0x4c2a7c53e29ec00000000000000000000000000000a7a53d29e8000a7900000000c27c4f80b,
  0x1950ca800032a195201100832a000000000102200053e80000c2805000d,
  0x4c283741ba0dc0000000000000000000000000000083641b20d8000a7e00000000c2845080b,
  0x4c2a825412a0400000000000000000000000000000a805402a00000a7f00000000c2885100b,
  0xa8854380015088385432a15508000000000102200054180000c2905200d,
  0xa845458001508a8b5432a29508000000000102200054480000c2945280d,
  0xa8854380015088385432a15508000000000102200054480000c2985300d,
  0xa845458001508a8b5432a29508000000000102200054180000c29c5380d,
  0xa845458001508a8b5422a2d50800000000002e200054600000c2a05400d,
  0xa88543800150883854220e150800000000002e200054600000c2a45480d,
  0x4c200041b80000c2a855024,
  0xa8441980015088335432a395080000000000bc000054680000c2ac5580d,
  0x4c283741ba0dc0000000000000000000000000000083841c20e0000a7e00000000c2b05600b,
  0xa84419800150883354220cd50800000000002e200054600000c2b45680d,
  0x4c200041b80000c2b857024,
  0xa8441980015088335432a39508000000000102200054180000c2bc5780d,
  0x4c260d30698340000000000000000000000000000083841c20e000083900000000c2c05800b,
  0x151e1950ca800032a1950ca865432a00000000002e200013080000c10886841,
  0x4c226c13610340000000000000000000000000000040c2061030000a9000000000cc388700b,
  0x5c44c20000000000c6463254918c8c64a9131918c8c64000000000000026d00000000c09c87826,
  0x17206000002e40c00b903002e400000000002e200020700000cc3c1800d,
  0x1720b380002e41670b9059c2e400000000002e200020700000cc401800d,
  0x27d0ca80004fa19513e86544fa00000000002e200020700000cc441800d,
  0x4c226c13610340000000000000000000000000000040c2061030000a9300000000c7d41780b,
  0x1720b680002e416d0b905b42e400000000002e200020700000c7d81800d,
  0x1720b380002e41670b9059c2e400000000002e200020700000c7dc1800d,
  0x4c226c13610340000000000000000000000000000040c2061030000a9300000000c7d48700b,
  0x4c200054a00000c3a488024,
  0xa97060000152aa9654aaa5952a00000000002e20000b800000c1e48880d,
  0x4c23c51e28f1400000000000000000000000000000a9854c2a600003c300000000c3a88900b,
  0x4c23c51e28f1400000000000000000000000000000a9954caa640003c300000000c3a88980b,
  0x4c226c136103400000000000000000000000000000a9a54d2a68000a9000000000cc388a00b,
  0x4c227f13f90500000000000000000000000000000041520a905400041200000000c2088700b,
  0x1720b680002e416d0b905b42e400000000002e200020880000c1241800d,
  0x4c227f13f905000000000000000000000000000000a9b54daa6c00041200000000c2088a00b,
  0x4c200031600000c7a08a824,
  0x4c200054e00000c3a48b024,
  0xaa0314000153ca9f54f2a7d53c000000000153a00042f80000c1e48b80d,
  0x4c2aa3551aa8c00000000000000000000000000000aa25512a88000aa100000000c3a88c00b,
  0x4c2aa3551aa8c00000000000000000000000000000aa45522a90000aa100000000c3a88c80b,
  0x1950ca800032a1955532a9832a00000000002e200055280000c0388d00d,
  0x154e1950ca800032a1955532a9832a00000000002e200055280000c1088d841,
  0x1950ca800032a195554aaa432a00000000002e200055400000c0388e00d,
  0x4c2aad556aab000000000000000000000000000000aab555aaac000aaa00000000c2088e80b,
  0x85731680010ae62d42b98b50ae00000000002e200042f80000c20c8f00d,
  0x85731400010ae62842b98a10ae00000000002e200055700000c1e48f80d,
  0x85731680010ae62d42b98b50ae00000000002e200055700000c20c9000d,
  0xab05588001560ab15582ac556000000000002e200055780000c1e49080d,
  0xab05590001560ab25582ac956000000000002e200055780000c20c9100d,
  0x4c2aad556aad400000000000000000000000000000ab455a2ad0000ab300000000c2089180b,
  0xab60ca800156c19555b065556c00000000002e200055700000c1fc9200d,
  0xab60ca800156c19555b065556c00000000002e200042f80000c1fc9280d,
  0x4c2aad556aab40000000000000000000000000000062d31698b4000ab700000000c2089300b,
  0x4c2aad556aab000000000000000000000000000000aab555aaac000aaa00000000c2089380b,
  0x5c44c2000000000032a1950caaae1570ab955c2ae1570000000000000026d00000000c09c94026,
  0x85742f00010ae85e42ba1790ae00000000002e200055700000c1249480d,
  0x4c2261130907c0000000000000000000000000000041e20f107800041d00000000c0308700b,
  0x4c200043380000c09488024,
  0xabc0ca8001574abb55d2aed57400000000002e200013080000c0388880d,
  0x4c2261130898400000000000000000000000000000abd55eaaf400026d00000000c0308900b,
  0x4c2261130898400000000000000000000000000000abe55f2af800026d00000000c0308980b,
  0x4c2261130907c00000000000000000000000000000abf55faafc00041d00000000c0308a00b,
  0x4c200032000000c0948a824,
  0x4c200056000000c0948b024,
  0xac331e0001582ac2560ab09582000000000153a00043b80000c0388b80d,
  0x4c2ac65632b1800000000000000000000000000000ac5562ab14000ac400000000c0308c00b,
  0x4c2ac65632b1800000000000000000000000000000ac7563ab1c000ac400000000c0308c80b,
  0x4c2acb565ab2800000000000000000000000000000ac9564ab24000ac800000000c0308e80b,
  0x86f32080010de64143799050de00000000002e200043b80000c0388f00d,
  0x86f31e00010de63c43798f10de00000000002e200056600000c0388f80d,
  0x86f32080010de64143799050de00000000002e200056600000c0389000d,
  0xace567800159cacf5672b3d59c00000000002e200056680000c0389080d,
  0xace568000159cad05672b4159c00000000002e200056680000c0389100d,
  0x4c2acb565ab4c00000000000000000000000000000ad25692b48000ad100000000c0309180b,
  0xad40ca80015a819556a06555a800000000002e200056600000c0389200d,
  0xad40ca80015a819556a06555a800000000002e200043b80000c0389280d,
  0x4c2acb565ab2c000000000000000000000000000006413209904000ad500000000c0309300b,
  0x4c2acb565ab2800000000000000000000000000000ac9564ab24000ac800000000c0309380b,
  0x86f43b00010de876437a1d90de00000000002e200056600000c0389480d,
  0x30018000006003003701b8060000000000057600015d00002c0398900d,
  0xe000015f80002c0958a024,
  0xad756c00015aead856bab615ae00000000000da00056b00002c0398a80d,
  0xad756c80015aead956bab655ae00000000000da00056b00002c0398b00d,
  0xe007003801c000000000000000000000000000000ada56d2b680000d300000002c0318b80b,
  0xe0adc56e2b70000000000000000000000000000008824412208000adb00000002c0318c00b,
  0x8804410001100882440220910000000000000da00043f80002c0398c80d,
  0x88056e8001100add4402b7510000000000000da00043f80002c0398d00d,
  0x8804408001100881440220510000000000000da00043f80002c0398d80d,
  0xadf57000015beae056fab815be00000000000da00056f00002c0398e00d,
  0xadf57080015beae156fab855be00000000000da00056f00002c0398e80d,
  0x3001800015c4ae25712b895c400000000000da00003800002c0398f00d,
  0xe02c5162ab9000000000000000000000000000000ae3571ab8c0002c200000002c0318f80b,
  0x2ca16880005942d11650b4459400000000000da00057280002c0399000d,
  0x2ca0d500005941aa16506a859400000000000da00057280002c0399080d,
  0x30018000006003001800c006000000000000da00057300002c0399100d,
  0xe000021900002c09591824,
  0x1112030018000006003021e10f006000000000000da00021d80002c10992041,
  0x30018000006003021e10f006000000000000da00021d80002c0399280d,
  0xae857480015d0ae95742ba55d000000000000da00057380002c0399300d,
  0xae857500015d0aea5742ba95d000000000000da00057380002c0399380d,
  0xe0443221abb400000000000000000000000000000aec5762bb0000aeb00000002c0319400b,
  0xe0aef577abbc00000000000000000000000000000893449a24c000aee00000002c0319480b,
  0x8914498001122893448a24d12200000000000da00044800002c0399500d,
  0x8915780001122af0448abc112200000000000da00044800002c0399580d,
  0x8914490001122892448a24912200000000000da00044800002c0399600d,
  0xaf257980015e4af35792bcd5e400000000000da00057880002c0399680d,
  0xaf257a00015e4af45792bd15e400000000000da00057880002c0399700d,
  0xe000057a80002c09597824,
  0x2ca0d280015ecaf757b2bdd5ec00000000000da00016900002c0399800d,
  0xe0443221910c0000000000000000000000000000043a21d10e800044d00000002c0319880b,
  0x30018000006003021e10f00600000000000cae00057c00002c0399900d,
  0xe000057c80002c09599824,
  0x30018000006003021e10f00600000000000cae00057c00002c0399a00d,
  0xe007003801c000000000000000000000000000000afa57d2be80000d300000002c0319a80b,
  0x30018000006003021f90fc06000000000015f800057d80002c0399b00d,
  0x1b40e000000000000600300182280060afd01800c006000000000000000d300000002c09d9b826,
  0x30018000006003021f90fc06000000000015f800057d80002c0399c00d,
  0x30018000006003021f90fc06000000000000da00021f00002c0399c80d,
  0x30018000006003021f90fc06000000000015f800057d80002c0399d00d,
  0xe08a24512288000000000000000000000000000004482241120000afe00000002c0319d80b,
  0xe000045100002c0959e024,
  0x446224000088c448223112088c00000000000da00003800002c0399e80d,
  0x15fe030018000006003021e10f006000000000000da00021d80002c1099f041,
  0x1b40e00000000001600b005812c01600b015802c0160000000000000000d300000002c09d9f826,
  0xe000045480002c095a0024,
  0x300180001608b045822c11608000000000160600003800002c039a080d,
  0xe007003801c000000000000000000000000000000b005802c000000d300000002c031a100b,
  0xe0070038227000000000000000000000000000000b05582ac1400089a00000002c031a180b,
  0xe0070038227000000000000000000000000000000b065832c1800089a00000002c031a200b,
  0x13012c000000000013009804c22b8130b0704c0260130000000000000009e00000003cd9013b63,
  0x9804c0000130098457a2bc130000000000161200058400003cd9407364,
  0x9804c0000130098457a2bc130000000000009800022880003cd9807365,
  0x9804c000013009804c0260130000000000009800058500003cd9c07366,
  0x9804c000013009804c0260130000000000009800058580003cda007367,
  0x58600003cda400368,
  0x12c09604b2c3c00000000000000000000000000000b0e5872c38000b0d00000003cda806369,
  0x9804c000013009804c0260130000000000009800058800003cdac0736a,
  0x12c00045b00003cdb012b6b,
  0x9804c00008a6453229914c8a6000000000162200004b00003cdb40736c,
  0x12c09604b0258000000000000000000000000000008b745ba2dc00009e00000003cdb80636d,
  0x9804c00001300980da86d4130000000000009800034380003cdbc0736e,
  0x162409804c00001300980da86d4130000000000009800034380003cdc02136f,
  0x162609804c00001300980da86d4130000000000009800034380003cdc407370,
  0x12c00058a00003cdc812b71,
  0x9804c00008a645322a11508a6000000000162a00058400003cdcc07372,
  0x12c09604b025800000000000000000000000000000b1658b2c5800009e00000003cdd006373,
  0x9804c000013009858c2c60130000000000009800058b80003cdd407374,
  0x163209804c000013009858c2c60130000000000009800058b80003cdd821375,
  0x163409804c000013009858c2c60130000000000009800058b80003cddc07376,
  0x13012c0000000001636b1b58eac6d636b1c58dac6d636000000000000009e00000003cde013b77,
  0x118609804c00001300980dc06e013000000000000980000db80003cde421378,
  0x163c09804c00001300980dc06e013000000000000980000db80003cde807379,
  0x9804c000013009804c0260130000000000009800016d00003cdec0737a,
  0x12c09604b116c00000000000000000000000000000b1f58fac7c00045900000003cdf12437b,
  0x12c00046380003cdf429b7c,
  0x9804c0001640b205902c8164000000000005c000004b00003cdf82a37d,
  0x12c09604b025800000000000000000000000000000462231118800009e00000003cdfc2ab7e,
  0x12c09604b116c00000000000000000000000000000b21590ac8400045900000003ce002b37f,
  0x59100003ce0524b80,
  0x8e6b245922c90000000000000000000000000000008cd466a334000b2300000023ce0806381,
  0x8cb46680011968cd465a33519600000000005d400046500023ce0c07382,
  0x8cb5928001196b25465ac9519600000000005d400046500023ce1007383,
  0x8cb46600011968cc465a33119600000000005d400046500023ce1407384,
  0x5e600059300013ce1812b85,
  0x5e6b265932c980000000000000000000000000000069a34d1a68000b2700000013ce1c06386,
  0xb2817a80016502f55940bd5650000000000038800034b80013ce2007387,
  0x902b2a5952ca8000000000000000000000000000008d446a2350000b2900000033ce2406388,
  0x8d246a00011a48d446923511a400000000005f200046880033ce2807389,
  0x8d259580011a4b2b4692cad1a400000000005f200046880033ce2c0738a,
  0x8d246980011a48d3469234d1a400000000005f200046880033ce300738b,
  0x12c2e61730b98000000000000000000000000000002e71738b9c00046000000003c91406244,
  0xf207400001e40e85972cb41e4000000000009800059600003c91807245,
  0xf207700001e40ee5972cbc1e4000000000009800059600003c91c07246,
  0x8dc46e237000000000000003ce340038c,
  0x2cc800000000000000000000000000000b31598acc4000b3000000003ce380038d,
  0x1666b3359a2ccd666b34599accd666000000000000000000000003ce3c0038e,
  0x59a80003ce400038f,
  0x166c00000000003ce4400390,
  0x8e600035200023ce4812b91,
  0x9804c000013009859c2ce0130000000000009800059b80003ce4c07392,
  0x167209804c000013009859c2ce0130000000000009800059b80003ce5021393,
  0x167409804c000013009859c2ce0130000000000009800059b80003ce5407394,
  0x90200035480033ce5812b95,
  0x12c489244922000000000000000000000000000000487243921c000b3b00000003ce5d25396,
  0xb3d59e00001e40e807903a01e4000000000009800007880003c7b5259ec,
  0xf203d00001e407a07901e81e4000000000009800059f00003ce6126397,
  0xb3d59e00001e40e807903a01e4000000000009800059f00003ce6526b98,
  0xb405a08001680b415a02d056800000000000e9000059f80003c7bd271ee,
  0xb445a18001680b425a02d096800000000000e9000059f80003c7c1279ef,
  0x1cd04c000039a0980e6826039a000000000009800059f00003ce6926399,
  0xb405a10001680b425a02d096800000000000e9000059f80003c7c5281f0,
  0xf207700001e40ee07903b81e4000000000009800059f00003ce6d28b9a,
  0xf207400001e40e807903a01e4000000000009800059f00003ce7128b9b,
  0x12c489244922400000000000000000000000000000b455a2ad1400048600000003c7d5291f4,
  0xf207700001e40ee07903b81e400000000000980005a300003c7d9299f5,
  0xf207400001e40e807903a01e400000000000980005a300003c7dd299f6,
  0xb3d59e00001e40e824583bc1e400000000008c800024500003ce752a39c,
  0xb3d59e00001e40e824583bc1e400000000008c800024600003ce792ab9d,
  0x12c00035d00003ce7d2b39e,
  0x499185800093230b5a4ad2093200000000000980005a380003ce812bb9f,
  0x12c49524a925000000000000000000000000000000493249924c000b4a00000003ce852d3a0,
  0xb4c5a5800093249c24c9270932000000000009800025100003ce892e3a1,
  0x499185800093230b24c8c2c93200000000000980005a680003ce8d2eba2,
  0xb4c5a5800093249c24c927093200000000000980005a680003ce912f3a3,
  0xb4f5a8000169eb505a7ad4169e0000000000e900005a700003ce952fba4,
  0xb535a9000169eb515a7ad4569e0000000000e900005a700003ce99303a5,
  0x6cb04c0000d960983658260d9600000000000980005a680003ce9d30ba6,
  0xb4f5a8800169eb515a7ad4569e0000000000e900005a700003cea1313a7,
  0x12c49524a925000000000000000000000000000000493249924c00049200000003cea531ba8,
  0x49925080009324a124c928493200000000000980005a680003cea9323a9,
  0x49924e000093249c24c927093200000000000980005a680003cead32baa,
  0x12c49524a925400000000000000000000000000000b555aaad54000b5400000003c89533224,
  0x49925080009324a124c928493200000000000980005ab00003c89933a25,
  0x49924e000093249c24c927093200000000000980005ab00003c89d34226,
  0x12c09604b2d6400000000000000000000000000000b585ac2d60000b5700000003ceb136bab,
  0x12c00048200003ceb5373ac,
  0x9804c00016b6b5b5adad6d6b600000000016b400004b00003ceb937bad,
  0x12c09604b025800000000000000000000000000000b5c5ae2d7000009e00000003cebd383ae,
  0x12c09604b2d6400000000000000000000000000000b5d5aead74000b5700000003cec138baf,
  0x12c6ba35d1ae80000000000000000000000000000090848424200008f100000003cec5393b0,
  0x49924e000093249c24d926893200000000008c800024c00003cec939bb1,
  0x499185800093230b2529290932000000000009800025180003cecd3a3b2,
  0x12c0005af00003ced0dc3b3,
  0x12c6ba35d1ae8000000000000000000000000000004ab25592ac0006b800000003ced4d73b4,
  0xaac0005af8002bced93abb5,
  0xaacb5f5afad7c000000000000000000000000000006c73639b1c000b600000002bcedd3b3b6,
  0xb612ac00016c25585b095616c2000000000070a0003620002bcee13bbb7,
  0x12c6ba35d1ae800000000000000000000000000000913489a44c0008f100000003cee53c3b8,
  0x12c49524a925000000000000000000000000000000493249924c00049200000003cee93cbb9,
  0x13012c0000000000a705383ab2d70a70b6229c14e0a70000000000000009e00000003ceed3d3ba,
  0xb4c5a5800093249c24d926893200000000008c800024c00003cef13dbbb,
  0xb4c5a5800093249c24d926893200000000008c800024f80003cef53e3bc,
  0x499185800093230b25292909320000000000ee000025180003cef93ebbd,
  0x12c6ba35d1ae8000000000000000000000000000003101880c400008f100000003cefcd23be,
  0x49924e000093249c5b2ad9093200000000000980005b180003cf008f3bf,
  0x49925080009324a15b2ad9893200000000000980005b180003cf04543c0,
  0x12c00025680003cf0829bc1,
  0x12c00025680003cf0c29bc2,
  0x8e303d00016ce4af5b412c96ce000000000024e00017e80003cf10ce3c3,
  0x12c0005b480003cf1429bc4,
  0x2e303d00016d4b6b5b52dad6d400000000005c000007880003cf182a3c5,
  0x12c2e61730b9800000000000000000000000000000b6c5b62db00002e400000003cf1c2abc6,
  0x12c1cf0e78bc000000000000000000000000000000b6d5b6adb40002ee00000003cf202b3c7,
  0x8e303d00016dc4bc5b792e96dc000000000024e00017e80003cf24ce3c8,
  0x12c0005b800003cf28d5bc9,
  0x49918580016e24c35b8930d6e2000000000024e00025100003cf2cd63ca,
  0x12c6ba35d1ae800000000000000000000000000000b725b92dc80006b800000003cf30d6bcb,
  0x12c6cd3669b34000000000000000000000000000004c526293140006cc00000003cf34d7bcc,
  0x12c0005b980003cf38da3cd,
  0x8f418580016e84c35ba93056e80000000000aba00048780003cf3cdabce,
  0x12c6ba35d1ae800000000000000000000000000000b765bb2dd80006b800000003cf40db3cf,
  0xe000026300002cf4429bd0,
  0xe000026300002c81829a05,
  0xe00005bb80002c81812a05,
  0x10808380016f0b795bc2de56f000000000000da0000f900002c64407190,
  0xe03311988cc4000000000000000000000000000004cc266133000033000000002c64806191,
  0xe04cb265932c0000000000000000000000000000093049824c00006e800000002c54c89952,
  0xb7f5bf00016f61ee5beadf16f600000000000da0005bd00002c20ccb882,
  0xb7b0f880016f61f15beae016f600000000000da0005bd00002c124cc048,
  0xb815bf00002101ee08407b821000000000000da0000f900002c20ccc882,
  0x10808380002101075c1ae0821000000000000da00026700002c1e4cd078,
  0x10808380002101075c32e1421000000000000da0005c200002c1e4cd878,
  0xb7b083800170e4c85c4133d70e000000000033000026700002c644ce190,
  0xb7b08380017124d65c51351712000000000033000026700002c1e4ce078,
  0xe093949ca4e400000000000000000000000000000b8c5c62e30000b8b00000002c54cce952,
  0xb925c8800171c4e35c82e3d71c0000000000cae0005c680002c20ccf882,
  0xb8e384800171c7095c82e4d71c0000000000cae0005c680002c124d0048,
  0xb945c88000e044e3381138ce0400000000000da00038500002c20cd0882,
  0xe000049c80002c544d1150,
  0x70226f0000e044de5cbae58e0400000000000da0005ca80002c1e4d1878,
  0xe093949ca4e4000000000000000000000000000004e3271938c000b8b00000002c54cd2152,
  0x70226f0000e044de5cd2e64e0400000000000da0005cc00002c1e4d2878,
  0xe00005cd80002c3a4d58e8,
  0x70226f00017384dd5ce1375738000000000033000038500002c1e4d6078,
  0xe093949ca4e400000000000000000000000000000b9d5ceae7400093700000002c3a8d68e9,
  0xe093949ca4e4000000000000000000000000000004e3271938c00093700000002c3a8d70e9,
  0xe093e49f24f8000000000000000000000000000004e5272939400094800000002c208d7881,
  0xe0b9f5cfae7c000000000000000000000000000009434a1a50c000b9e00000002c208d8081,
  0x9414a180012829434a0a50d28200000000000da0004a000002c20cd8882,
  0x9415d00001282ba04a0ae8128200000000000da0004a000002c124d9048,
  0x9414a100012829424a0a50928200000000000da0004a000002c1e4d9878,
  0xe00005d080002c3a4da0e8,
  0xb8e26f00017464dd5d2136d7460000000000cec0005d100002c1e4da878,
  0xe093949ca4e400000000000000000000000000000ba55d2ae9400093700000002c3a8db0e9,
  0x7022718000e044e3381138ce0400000000000da00003800002c3a0db8e7,
  0xe000049c80002c3a4dc0e8,
  0x5d42ea0000000000000174e0005d300001a001e93d1,
  0xa2cbaa5d52ea80000000000000000000000000000094d4a6a534000ba900000009a001e9bd2,
  0x94b4a6800129694d4a5a53529600000000006b80004a500009a001ea3d3,
  0x94b5d58001296bab4a5aead29600000000006b80004a500009a001eabd4,
  0x94b4a6000129694c4a5a53129600000000006b80004a500009a001eb3d5,
  0x4ea00a80009d40155d613c09d4000000000007800008a00001a001ebbd6,
  0x12a20005d680005a001ec3d7,
  0x12a2bad5d6aeb40000000000000000000000000000071738b9c5c000bae00000005a001ecbd8,
  0x12a29514a8a544000000000000000000000000000009534a9a54c00095200000005a0000600b,
  0x12a20004a880005a00012824,
  0x9534a980012a69534a9a54d2a60000000000e280004a880005a0000700d,
  0x12a69534a980012a69534a9a54d2a60000000000e280004a880005a00021041,
  0xbaf4a9800175e9535d7a54d75e0000000000e2800038980005a001ed3d9,
  0x1764bb15d8aec40000000000000000000000000000095a4ad2568000bb00000000da001edbda,
  0x255d7640000000001768bb45da2ed1768bb55da2ed17680000000000000bb30000000da00013826,
  0x9584ad00012b095a4ac25692b000000000012ae0004ab0000da001ee3db,
  0x9585db00012b0bb64ac2ed92b000000000012ae0004ab0000da001eebdc,
  0x9584ac80012b09594ac25652b000000000012ae0004ab0000da001ef3dd,
  0x1500a800002a0155dc2ee002a00000000000780005db80001a001efbde,
  0x20d08e8001772bba5dcaee9772000000000069200010a80001a001f03df,
  0x7e34f1a78d3c000000000000000000000000000004f627b13d800034d00000001a001f0be0,
  0x7e3591aca59c00000000000000000000000000000bbb5ddaeec00096500000001a001f13e1,
  0x7e03f01f9cc400000000000000000000000000000bbc5de2ef000072f00000001a001f1be2,
  0x5de80001a001f23e3,
  0xa2cbbf5dfaefc000000000000000000000000000009644b22590000bbe00000009a001f2be4,
  0x9624b200012c49644b125912c400000000006b80004b080009a001f33e5,
  0x9625e000012c4bc04b12f012c400000000006b80004b080009a001f3be6,
  0x9624b180012c49634b1258d2c400000000006b80004b080009a001f43e7,
  0x7e0005e080001a001f4be8,
  0x4fb08e80009f611d5e1140c9f600000000009f400028e00001a001f53e9,
  0x7e34f1a78d3c00000000000000000000000000000bc35e1af0c00034d00000001a001f5bea,
  0x12a20005e200005a001f63eb,
  0x12a2bc45e22f10000000000000000000000000000007283941ca0000bc500000005a001f6bec,
  0xbc64a9800178c9535e3254d78c0000000000e2800039280005a001f73ed,
  0x1764bc85e42f200000000000000000000000000000096e4b725b8000bc70000000da001f7bee,
  0x96c4b700012d896e4b625b92d800000000012ae0004b58000da001f83ef,
  0x96c5e480012d8bc94b62f252d800000000012ae0004b58000da001f8bf0,
  0x96c4b680012d896d4b625b52d800000000012ae0004b58000da001f93f1,
  0x7e34f1a78d3c000000000000000000000000000003501a80d400004f500000001a001f9bf2,
  0x20d091000041a1225e62f2c41a00000000000780005e500001a001fa3f3,
  0x20d10a000041a2145e62f3441a00000000000780005e500001a001fabf4,
  0x7e03f01f942800000000000000000000000000000509284942400050800000001a001fb3f5,
  0x7e03f01f80fc000000000000000000000000000009744ba25d000008900000001a001fbbf6,
  0x1500a800002a01500a805402a0000000000e7600001f80001a001fc3f7,
  0x7e03f01f943c0000000000000000000000000000050e287143800050d00000001a001fcbf8,
  0xf007e0000000000e6a7355e79cd4e6abce39a9cd4e6a000000000000008900000001a001fd3f9,
  0x12f201500a800002a01500a805402a000000000007800001f80001a001fdbfa,
  0xa2c00039b80009a001fe3fb,
  0x1500a800002a01500a805402a000000000007800028600001a001febfc,
  0x1500a800002a015291148802a000000000007800029080001a001ff3fd,
  0x17a001500a800002a015291148802a000000000007800029080001a001ffbfe,
  0x17a201500a800002a015291148802a000000000007800029080001a002003ff,
  0xf007e000000000002a01500aa5e802abd200a805402a000000000000008900000001a00200c00,
  0x1500a800002a015291148802a0000000000e760005e980001a00201401,
  0x1500a800002a015291148802a0000000000e760005e980001a00201c02,
  0x1500a800002a015291148802a0000000000e760005e980001a00202403,
  0x5eb2f5800000000000017aa0005ea00003cf49e93d1,
  0xaacbd85ec2f60000000000000000000000000000009854c2a614000bd70000002bd015e9c04,
  0x9834c280013069854c1a615306000000000070a0004c10002bd019ea405,
  0x9835ec8001306bd94c1af65306000000000070a0004c10002bd01deac06,
  0x9834c200013069844c1a611306000000000070a0004c10002bd021eb407,
  0x52700f0000a4e01e5ed14b8a4e000000000009800009700003d025ebc08,
  0x13120005ed80017d029ec409,
  0x1312bdb5edaf6c0000000000000000000000000000074b3a59d2c000bdc00000017d02decc0a,
  0x13129894c4a6240000000000000000000000000000098b4c5a62c00098a00000017c0300600b,
  0x13120004c480017c09412824,
  0x98b4c5800131698b4c5a62d3160000000000e900004c480017c0380700d,
  0x131698b4c5800131698b4c5a62d3160000000000e900004c480017c10821041,
  0xbdd4c580017ba98b5eea62d7ba0000000000e900003a380017d031ed40b,
  0x17c0bdf5efaf7c000000000000000000000000000009924c92648000bde0000003fd035edc0c,
  0x263d7c000000000017c4be25f12f897c4be35f12f897c40000000000000be10000003fc09c13826,
  0x9904c900013209924c82649320000000000131e0004c70003fd039ee40d,
  0x9905f20001320be44c82f91320000000000131e0004c70003fd03deec0e,
  0x9904c880013209914c82645320000000000131e0004c70003fd041ef40f,
  0x1f027800003e04f5f3af9803e00000000000980005f280003d045efc10,
  0x1f029000003e0525f3afa003e00000000000980005f280003d049efc11,
  0x22d09c00017d2bea5f4afa97d200000000006e400011a80003d04df0412,
  0x12c3781bc0de00000000000000000000000000000053629b14d800037600000003d051f0c13,
  0x12c3821c1268000000000000000000000000000000beb5f5afac00099e00000003d055f1414,
  0x12c09604b1d9800000000000000000000000000000bec5f62fb000076400000003cf8df1be2,
  0x5f680003cf91f23e3,
  0xaacbef5f7afbc0000000000000000000000000000099d4cea674000bee0000002bd059f2c15,
  0x99b4ce800133699d4cda675336000000000070a0004cd0002bd05df3416,
  0x99b5f80001336bf04cdafc1336000000000070a0004cd0002bd061f3c17,
  0x99b4ce000133699c4cda671336000000000070a0004cd0002bd065f4418,
  0x12c0005f880003d069f4c19,
  0x53b09c0000a761385f9150ca760000000000a740002ae00003d06df541a,
  0x12c3781bc0de000000000000000000000000000000bf35f9afcc00037600000003d071f5c1b,
  0x13120005fa00017d075f641c,
  0x1312bf45fa2fd00000000000000000000000000000075d3ae9d74000bf500000017d079f6c1d,
  0xbf64c580017ec98b5fb262d7ec0000000000e900003ad00017d07df741e,
  0x17c0bf85fc2fe0000000000000000000000000000009a74d3a69c000bf70000003fd081f7c1f,
  0x9a54d3800134a9a74d2a69d34a000000000131e0004d20003fd085f8420,
  0x9a55fc800134abf94d2afe534a000000000131e0004d20003fd089f8c21,
  0x9a54d3000134a9a64d2a69934a000000000131e0004d20003fd08df9422,
  0x12c3781bc0de0000000000000000000000000000003791bc8de400053500000003d091f9c23,
  0x22d09e800045a13d5fe2fec45a00000000000980005fd00003d095fa424,
  0x22d11a000045a2345fe2ff445a00000000000980005fd00003d099fac25,
  0x12c09604b1528000000000000000000000000000005492a4952400054800000003cfd9fb3f5,
  0x12c09604b0258000000000000000000000000000009ad4d6a6b400009e00000003cfddfbbf6,
  0x9804c000013009804c02601300000000000ee000004b00003cfe1fc3f7,
  0x12c09604b153c0000000000000000000000000000054e2a7153800054d00000003cfe5fcbf8,
  0x13012c0000000000ed476a5ff9da8ed4bfe3b51da8ed4000000000000009e00000003cfe9fd3f9,
  0x136409804c000013009804c0260130000000000009800004b00003cfedfdbfa,
  0xaac0003b60002bd09dfe426,
  0x9804c000013009804c026013000000000000980002a600003cff5febfc,
  0x9804c00001300982b1158813000000000000980002b080003cff9ff3fd,
  0x180009804c00001300982b1158813000000000000980002b080003cffdffbfe,
  0x180209804c00001300982b1158813000000000000980002b080003d002003ff,
  0x13012c000000000013009804c26cc130c0204c0260130000000000000009e00000003d00600c00,
  0x9804c00001300982b115881300000000000ee000060180003d00a01401,
  0x9804c00001300982b115881300000000000ee000060180003d00e01c02,
  0x9804c00001300982b115881300000000000ee000060180003d01202403,
  0xc09604000180a098603b01980a000000000009800060200003c65ccb996,
  0xc0504c000180a098603b01980a000000000009800060200003c660cc197,
  0xc0a604000013009804c0260130000000000009800004b00003c664cc998,
  0x9804c0000130098605b02c13000000000000980002b300003c668cd199,
  0x9804c0000130098606b034130000000000009800060600003c66ccd99a,
  0xc0504c000181c564607959d81c000000000024e0002b300003c670ce19b,
  0x12c9c64e3271800000000000000000000000000000c11608b044000c1000000003c674ce99c,
  0xc1760b000182657360ab0518260000000000a7400060900003c67ccf99e,
  0xc133c4800182678960ab0618260000000000a7400060900003c680d019f,
  0xc1960b0000f045733c115ccf0400000000000980003c500003c684d09a0,
  0x12c0004e300003c688d11a1]

def splitStates5 : List Nat := [
  0x7822b70000f0456e60e306cf04000000000009800060d00003c68cd19a2,
  0x12c9c64e32718000000000000000000000000000005732b995cc000c1000000003c690d21a3,
  0x7822b70000f0456e60fb078f04000000000009800060e80003c694d29a4,
  0x12c00061000003c6acd59aa,
  0x7822b7000184256d61095b5842000000000024e0003c500003c6b0d61ab,
  0x12c9c64e3271800000000000000000000000000000c2261130880009c400000003c6b4d69ac,
  0x12c9c64e32718000000000000000000000000000005732b995cc0009c400000003c6b8d71ad,
  0x12c9cb4e5a72c000000000000000000000000000005752ba95d40009d500000003c6bcd79ae,
  0xaacc246123090000000000000000000000000000009d04e82740000c230000002bc6c0d81af,
  0x9ce4e8000139c9d04e7274139c000000000070a0004e68002bc6c4d89b0,
  0x9ce612800139cc254e7309539c000000000070a0004e68002bc6c8d91b1,
  0x9ce4e7800139c9cf4e7273d39c000000000070a0004e68002bc6ccd99b2,
  0x12c00061300003c6d0da1b3,
  0xc132b7000185056d61495ad8500000000000aba00061380003c6d4da9b4,
  0x12c9c64e3271800000000000000000000000000000c2a61530a80009c400000003c6d8db1b5,
  0x7822b98000f045733c115ccf04000000000009800004b00003c6dcdb9b6,
  0x12c0004e300003c6e0dc1b7,
  0xe00002bb80002c1998a065,
  0xc2c6168001858c2d61630b585800000000000da00061580002c0e18a837,
  0xc2c6170001858c2e61630b985800000000000da00061580002c06d8b01a,
  0xe01490a4852400000000000000000000000000000c2f617b0bc00014d00000002c0f18b83b,
  0xe0c31618b0c4000000000000000000000000000009dd4eea774000c3000000002c0f18c03b,
  0x9db4ee80013b69dd4eda7753b600000000000da0004ed00002c06d8c81a,
  0x9db61900013b6c324edb0c93b600000000000da0004ed00002c0698d019,
  0x9db4ee00013b69dc4eda7713b600000000000da0004ed00002c0e18d837,
  0xc3461a8001868c3561a30d586800000000000da00061980002c0e18e037,
  0xc3461b0001868c3661a30d986800000000000da00061980002c06d8e81a,
  0x5f02f000186ec3861bb0e186e00000000000da00005a80002c0e18f037,
  0xe01490a485240000000000000000000000000000057c2be15f000014d00000002c0f08983b,
  0xe03a81d430e800000000000000000000000000000c3961cb0e40003a500000002c0f18f83b,
  0x3aa1d880007543b11d50ec475400000000000da00061d80002c06990019,
  0x3aa12a00007542541d5095075400000000000da00061d80002c06d9081a,
  0xe00002bf00002c19991865,
  0xc3d61f000187ac3e61eb0f987a00000000000da00061e00002c0e193037,
  0xc3d61f800187ac3f61eb0fd87a00000000000da00061e00002c06d9381a,
  0xe05892c4b10800000000000000000000000000000c41620b104000c4000000002c0f19403b,
  0xe0c446223110000000000000000000000000000009ec4f627b0000c4300000002c0f19483b,
  0x9ea4f600013d49ec4f527b13d400000000000da0004f480002c06d9501a,
  0x9ea62280013d4c454f531153d400000000000da0004f480002c06995819,
  0x9ea4f580013d49eb4f527ad3d400000000000da0004f480002c0e196037,
  0xc47624000188ec48623b12188e00000000000da00062300002c0e196837,
  0xc47624800188ec49623b12588e00000000000da00062300002c06d9701a,
  0xe000062500002c19997865,
  0x3aa1278001896c4c625b13189600000000000da0001d900002c0e198037,
  0xe05892c49624000000000000000000000000000005852c2961400059300000002c0f19883b,
  0xe09f24f927c80000000000000000000000000000058e2c71638000c4d00000002c2d99d8b5,
  0xe00004f900002c2d19e0b3,
  0x58c2c70000b1858e2c61638b1800000000000da00003800002c1959e864,
  0x5c44c2000000000032a1950caa7dc32ac4e0ca865432a000000000000026d00000000cd9013826,
  0x1950ca800032a1954fc27e032a00000000018a000062780000cd940700d,
  0x1950ca800032a1954fc27e032a00000000002e20002ca80000cd980700d,
  0x1950ca800032a1950ca865432a00000000002e200062880000cd9c0700d,
  0x1950ca800032a1950ca865432a00000000002e200062900000cda00700d,
  0x4c2261130b15400000000000000000000000000000c5462a3150000c5300000000cda80600b,
  0x1950ca800032a1950ca865432a00000000002e200062b00000cdac0700d,
  0x4c20004ff00000cdb012824,
  0x1950ca8000b2e5972cb965cb2e00000000018ae00013080000cdb40700d,
  0x4c22611308984000000000000000000000000000009ff4ffa7fc00026d00000000cdb80600b,
  0x1950ca800032a195132099032a00000000002e20003e080000cdbc0700d,
  0x18b01950ca800032a195132099032a00000000002e20003e080000cdc021041,
  0x1950ca800032a195132099032a00000000002e20003e080000cdc40700d,
  0x4c200062c80000cdc812824,
  0x1950ca8000b2e5972cc1660b2e00000000018b400062780000cdcc0700d,
  0x4c2261130898400000000000000000000000000000c5b62db16c00026d00000000cdd00600b,
  0x1950ca800032a19562eb17432a00000000002e200062e00000cdd40700d,
  0x18bc1950ca800032a19562eb17432a00000000002e200062e00000cdd821041,
  0x1950ca800032a19562eb17432a00000000002e200062e00000cddc0700d,
  0x5c44c200000000018bec5f630b17d8bec6062fb17d8be000000000000026d00000000cde013826,
  0x14161950ca800032a195133899c32a00000000002e200013300000cde421041,
  0x1950ca800032a195133899c32a00000000002e200013300000cde80700d,
  0x1950ca800032a1950ca865432a00000000002e20001dc80000cdec0700d,
  0x4c2261130967c00000000000000000000000000000c62631318800059d00000000cdf12400b,
  0x4c200050780000cdf429824,
  0x1950ca80018c6c63631b18d8c6000000000077e00013080000cdf82a00d,
  0x4c22611308984000000000000000000000000000005a62d3169800026d00000000cdfc2a80b,
  0x4c2261130967c00000000000000000000000000000c64632319000059d00000000ce002b00b,
  0x4c2c66633319800000000000000000000000000000a1450a2850000c6500000000ce080600b,
  0xa1250a0001424a14509285142400000000002e200050880000ce0c0700d,
  0xa126338001424c67509319d42400000000002e200050880000ce100700d,
  0xa125098001424a13509284d42400000000002e200050880000ce140700d,
  0x4c200063400000ce1812824,
  0x4c2c6863431a0000000000000000000000000000007d43ea1f50000c6900000000ce1c0600b,
  0xc6a0ca80018d419563506558d400000000002e20003e880000ce200700d,
  0x4c2c6c63631b000000000000000000000000000000a1b50da86c000c6b00000000ce240600b,
  0xa1950d8001432a1b50ca86d43200000000002e200050c00000ce280700d,
  0xa196368001432c6d50cb1b543200000000002e200050c00000ce2c0700d,
  0xa1950d0001432a1a50ca86943200000000002e200050c00000ce300700d,
  0x4c23c51e28f14000000000000000000000000000003c61e30f180005a400000000c9140600b,
  0x1720b380002e416763831bc2e400000000002e200063700000c9180700d,
  0x1720b680002e416d63831c42e400000000002e200063700000c91c0700d,
  0x4c20003ed80000ce4812824,
  0x1950ca800032a195639b1cc32a00000000002e200063900000ce4c0700d,
  0x18e81950ca800032a195639b1cc32a00000000002e200063900000ce5021041,
  0x1950ca800032a195639b1cc32a00000000002e200063900000ce540700d,
  0x4c20003f000000ce5812824,
  0x4c25c42e2170c000000000000000000000000000005c22e11708000c7500000000ce5d2500b,
  0xc7763b00002e41670b9059c2e400000000002e20000b800000c7b52580d,
  0x17206000002e40c00b903002e400000000002e200063c00000ce612600d,
  0xc7763b00002e41670b9059c2e400000000002e200063c00000ce652680d,
  0xc7a63d80018f4c7b63d31ed8f400000000002e200063c80000c7bd2700d,
  0xc7e63e80018f4c7c63d31f18f400000000002e200063c80000c7c12780d,
  0x27d0ca80004fa19513e86544fa00000000002e200063c00000ce692600d,
  0xc7a63e00018f4c7c63d31f18f400000000002e200063c80000c7c52800d,
  0x1720b680002e416d0b905b42e400000000002e200063c00000ce6d2880d,
  0x1720b380002e41670b9059c2e400000000002e200063c00000ce712880d,
  0x4c25c42e2171000000000000000000000000000000c7f63fb1fc0005c100000000c7d52900b,
  0x1720b680002e416d0b905b42e400000000002e200064000000c7d92980d,
  0x1720b380002e41670b9059c2e400000000002e200064000000c7dd2980d,
  0xc7763b00002e41672e305b82e40000000000b500002e280000ce752a00d,
  0xc7763b00002e41672e305b82e40000000000b500002e380000ce792a80d,
  0x4c20003f900000ce7d2b024,
  0x5d51f18000baa3e3641b208baa00000000002e200064080000ce812b80d,
  0x19081950ca800032a1950ca865432a00000000002e200013080000c9612c041,
  0x1950ca800032a1953fa9fd432a00000000002e20003fa00000c9652c80d,
  0x4c25d02e8173c000000000000000000000000000005ce2e71738000c8500000000ce852d00b,
  0x5c44c2000000000146ca36643a8d946cc8651b28d946c000000000000026d00000000c96d2d826,
  0xc896440000baa5d82ea9760baa00000000002e20002ef00000ce892e00d,
  0x5d51f18000baa3e32ea8f8cbaa00000000002e200064500000ce8d2e80d,
  0xc896440000baa5d82ea9760baa00000000002e200064500000ce912f00d,
  0xc8c6468001918c8d646323591800000000002e200064580000ce952f80d,
  0xc906478001918c8e646323991800000000002e200064580000ce993000d,
  0x8050ca800100a195402865500a00000000002e200064500000ce9d3080d,
  0xc8c6470001918c8e646323991800000000002e200064580000cea13100d,
  0x4c25d02e8173c000000000000000000000000000005ce2e717380005cd00000000cea53180b,
  0x5d52ee8000baa5dd2ea9774baa00000000002e200064500000cea93200d,
  0x5d52ec0000baa5d82ea9760baa00000000002e200064500000cead3280d,
  0x4c25d02e8174000000000000000000000000000000c926493248000c9100000000c8953300b,
  0x5d52ee8000baa5dd2ea9774baa00000000002e200064980000c8993380d,
  0x5d52ec0000baa5d82ea9760baa00000000002e200064980000c89d3400d,
  0x4c200052400000c9a534824,
  0x1950ca8001928c9464a32519280000000000fd800013080000c9a93500d,
  0x4c2261130898400000000000000000000000000000a3651b28d800026d00000000c9ad3580b,
  0x4c2261130b25c00000000000000000000000000000c9664b3258000c9500000000c9b13600b,
  0x4c2261130b26800000000000000000000000000000c9964cb264000c9800000000ceb13680b,
  0x4c200052680000ceb537024,
  0x1950ca8001938c9c64e3271938000000000193600013080000ceb93780d,
  0x4c2261130898400000000000000000000000000000c9d64eb27400026d00000000cebd3800b,
  0x4c2261130b26800000000000000000000000000000c9e64f3278000c9800000000cec13880b,
  0x4c27f23f91fc800000000000000000000000000000a51528a944000a3300000000cec53900b,
  0x5d52ec0000baa5d82eb9758baa0000000000b500002ea00000cec93980d,
  0x5d51f18000baa3e32f11784baa00000000002e20002ef80000cecd3a00d,
  0x4c200064f80000ced0dc024,
  0x4c27f23f91fc8000000000000000000000000000005e82f417a00007f000000000ced4d700b,
  0x4c200065000000ced93a824,
  0x4c2ca0650328000000000000000000000000000000801400a004000ca100000000cedd3b00b,
  0xca20ca8001944195651065594400000000002e20003ff00000cee13b80d,
  0x4c27f23f91fc800000000000000000000000000000a5c52e2970000a3300000000cee53c00b,
  0x4c25d02e8173c000000000000000000000000000005ce2e717380005cd00000000cee93c80b,
  0x5c44c2000000000146ca36643b27546cca351b28d946c000000000000026d00000000ceed3d026,
  0xc896440000baa5d82eb9758baa0000000000b500002ea00000cef13d80d,
  0xc896440000baa5d82eb9758baa0000000000b500002ed80000cef53e00d,
  0x5d51f18000baa3e32f11784baa00000000019480002ef80000cef93e80d,
  0x4c2261130b29c00000000000000000000000000000ca66533298000ca500000000c9f93f00b,
  0x1950ca800032a1950ca865432a00000000002e200065400000c9fd3f80d,
  0x1950ca800032a1950ca865432a00000000002e200065480000ca014000d,
  0x4c27f23f91fc8000000000000000000000000000003e81f40fa0000a3300000000cefcd200b,
  0x5d52ec0000baa5d865632acbaa00000000002e200065500000cf008f00d,
  0x5d52ee8000baa5dd65632b4baa00000000002e200065500000cf045400d,
  0x1950ca800032a1950ca865432a00000000002e200065700000c650ca00d,
  0x4c20002f500000cf0829824,
  0x14c61950ca800032a195201100832a00000000002e200020080000c654ca841,
  0x1950ca800032a195201100832a00000000002e200020080000c658cb00d,
  0x4c20002f500000cf0c29824,
  0xa25060000195e5ed65817c195e0000000000bd60001ea80000cf10ce00d,
  0x4c200065880000cf1429824,
  0x3c20600001964cb365932cd964000000000077e0000b800000cf182a00d,
  0x4c23c51e28f1400000000000000000000000000000cb465a32d00003c300000000cf1c2a80b,
  0x4c227f13f8f3400000000000000000000000000000cb565ab2d40003cb00000000cf202b00b,
  0xa25060000196c5fa65b97e196c0000000000bd60001ea80000cf24ce00d,
  0x1950ca800032a1950ca865432a00000000002e200065c00000c6a0d400d,
  0x4c2261130b2ec00000000000000000000000000000cba65d32e8000cb900000000c6a4d480b,
  0x1950ca800032a1950ca865432a00000000002e200065e00000c6a8d500d,
  0x4c200065e80000cf28d5824,
  0x5d51f1800197c60265f180997c0000000000bd60002ef00000cf2cd600d,
  0x4c27f23f91fc800000000000000000000000000000cbf65fb2fc0007f000000000cf30d680b,
  0x4c2807403a01c00000000000000000000000000000604302181000080600000000cf34d780b,
  0x4c200066000000cf38da024,
  0xa391f180019846026619801984000000000198200052c00000cf3cda80d,
  0x4c27f23f91fc800000000000000000000000000000cc466233100007f000000000cf40db00b,
  0x4c2261130981c00000000000000000000000000000606303181800060500000000c4388700b,
  0x4c200053e00000c44088024,
  0xcc70ca800198acc6662b31998a00000000002e200013080000c4448880d,
  0x4c2261130898400000000000000000000000000000cc8664332000026d00000000c4488900b,
  0x4c2261130898400000000000000000000000000000cc9664b32400026d00000000c44c8980b,
  0x4c2261130981c00000000000000000000000000000cca665332800060500000000c4508a00b,
  0x4c200041b80000c4548a824,
  0x4c200066580000c4588b024,
  0xcce4198001998ccd66633359980000000000fd800054600000c45c8b80d,
  0x4c2cd1668b34400000000000000000000000000000cd06683340000ccf00000000c4608c00b,
  0x4c2cd1668b34400000000000000000000000000000cd26693348000ccf00000000c4648c80b,
  0x4c2cd666b335400000000000000000000000000000cd466a3350000cd300000000c4748e80b,
  0xa8441c000150883854220e150800000000002e200054600000c4788f00d,
  0xa84419800150883354220cd50800000000002e200066b80000c47c8f80d,
  0xa8441c000150883854220e150800000000002e200066b80000c4809000d,
  0xcd966d00019b2cda66cb3699b200000000002e200066c00000c4849080d,
  0xcd966d80019b2cdb66cb36d9b200000000002e200066c00000c4889100d,
  0x4c2cd666b337800000000000000000000000000000cdd66eb374000cdc00000000c48c9180b,
  0xcdf0ca80019be19566f86559be00000000002e200066b80000c4909200d,
  0xcdf0ca80019be19566f86559be00000000002e200054600000c4949280d,
  0x4c2cd666b33580000000000000000000000000000083841c20e0000ce000000000c4989300b,
  0x4c2cd666b335400000000000000000000000000000cd466a3350000cd300000000c49c9380b,
  0xa845458001508a8b5422a2d50800000000002e200066b80000c4a49480d,
  0x1950ca800032a1950ca865432a00000000002e200067080000c038ca00d,
  0x4c200030880000cf4429824,
  0x151e1950ca800032a19515a0ad032a00000000002e200015980000c108ca841,
  0x1950ca800032a19515a0ad032a00000000002e200015980000c038cb00d,
  0x4c200030880000c81829824,
  0x4c23c51e28f1400000000000000000000000000000a9954caa640005a400000000c54c8980b,
  0xce767300019c6167672b3919c600000000002e200067100000c20ccb80d,
  0xce30b680019c616d672b3a19c600000000002e200067100000c124cc00d,
  0xce967300002e41670b9059c2e400000000002e20000b800000c20ccc80d,
  0x17206000002e40c0675b3a82e400000000002e200030b80000c1e4cd00d,
  0x17206000002e40c067733b42e400000000002e200067600000c1e4cd80d,
  0xce306000019de61467818619de0000000000c2400030b80000c644ce00d,
  0xce306000019e261f67918759e20000000000c2400030b80000c1e4ce00d,
  0x4c2aa3551aa8c00000000000000000000000000000cf467a33d0000cf300000000c54cce80b,
  0x5c44c2000000000032a1950cab3d832acf50ca865432a000000000000026d00000000c09ccf026,
  0xcfd67e00019f262d67db3e99f200000000019f000067b80000c20ccf80d,
  0xcf942f00019f285e67db3f99f200000000019f000067b80000c124d000d,
  0xcff67e00010ae62d42b98b50ae00000000002e200042f80000c20cd080d,
  0x4c200055180000c544d1024,
  0x85731400010ae62868134050ae00000000002e200068000000c1e4d180d,
  0x4c2aa3551aa8c0000000000000000000000000000062d31698b4000cf300000000c54cd200b,
  0x85731400010ae628682b4110ae00000000002e200068180000c1e4d280d,
  0x4c2261130b42000000000000000000000000000000d07683b41c000d0600000000c030d300b,
  0x1950ca800032a1950ca865432a00000000002e200068480000c038d380d,
  0x1950ca800032a1950ca865432a00000000002e200068500000c038d400d,
  0x4c2261130b43400000000000000000000000000000d0c6863430000d0b00000000c030d480b,
  0x1950ca800032a1950ca865432a00000000002e200068700000c038d500d,
  0x4c200068780000c3a4d5824,
  0x8573140001a20627688189da200000000000c2400042f80000c1e4d600d,
  0x4c2aa3551aa8c00000000000000000000000000000d11688b444000aa100000000c3a8d680b,
  0x4c2aa3551aa8c0000000000000000000000000000062d31698b4000aa100000000c3a8d700b,
  0x4c2aad556aab40000000000000000000000000000062f31798bc000ab700000000c208d780b,
  0x4c2d13689b44c00000000000000000000000000000ab25592ac8000d1200000000c208d800b,
  0xab05590001560ab25582ac956000000000002e200055780000c20cd880d,
  0xab068a0001560d14558345156000000000002e200055780000c124d900d,
  0xab05588001560ab15582ac556000000000002e200055780000c1e4d980d,
  0x4c200068a80000c3a4da024,
  0xcf93140001a3062768c9895a300000000001a2e00068b00000c1e4da80d,
  0x4c2aa3551aa8c00000000000000000000000000000d1a68d3468000aa100000000c3a8db00b,
  0x85731680010ae62d42b98b50ae00000000002e200013080000c3a0db80d,
  0x4c200055180000c3a4dc024,
  0x1950ca800032a19568e347032a00000000002e200068d80000c038dc80d,
  0x1a3a1950ca800032a19568e347032a00000000002e200068d80000c108dd041,
  0xd236910001a3e195690b481a3e00000000002e200068f00000c038cb80d,
  0xd1f0ca8001a3e195690b481a3e00000000002e200068f00000c038cc00d,
  0xd24691000032a1950ca865432a00000000002e200013080000c038cc80d,
  0x1950ca800032a195692b49432a00000000002e200031a00000c038cd00d,
  0x1950ca800032a195693b49c32a00000000002e200069300000c038cd80d,
  0xd1f0ca8001a5063169498d5a500000000000c2400031a00000c038ce00d,
  0x4c2ac65632b1800000000000000000000000000000d2b695b4ac000d2a00000000c030ce80b,
  0xd316980001a5a641697b4b9a5a00000000019f000069600000c038cf80d,
  0xd2d43b0001a5a876697b4c9a5a00000000019f000069600000c038d000d,
  0xd3369800010de64143799050de00000000002e200043b80000c038d080d,
  0x4c200056300000c094d1024,
  0x86f31e00010de63c69b34d50de00000000002e200069a00000c038d180d,
  0x4c2ac65632b18000000000000000000000000000006413209904000d2a00000000c030d200b,
  0x86f31e00010de63c69cb4e10de00000000002e200069b80000c038d280d,
  0x4c200069d00000c094d5824,
  0x86f31e0001a7663b69d98eda760000000000c2400043b80000c038d600d,
  0x4c2ac65632b1800000000000000000000000000000d3c69e34f0000ac400000000c030d680b,
  0x4c2ac65632b18000000000000000000000000000006413209904000ac400000000c030d700b,
  0x4c2acb565ab2c00000000000000000000000000000643321990c000ad500000000c030d780b,
  0x4c2d3e69f34f800000000000000000000000000000ad05682b40000d3d00000000c030d800b,
  0xace568000159cad05672b4159c00000000002e200056680000c038d880d,
  0xace69f800159cd3f56734fd59c00000000002e200056680000c038d900d,
  0xace567800159cacf5672b3d59c00000000002e200056680000c038d980d,
  0x4c20006a000000c094da024,
  0xd2d31e0001a8463b6a198e5a840000000001a2e0006a080000c038da80d,
  0x4c2ac65632b1800000000000000000000000000000d446a23510000ac400000000c030db00b,
  0x86f32080010de64143799050de00000000002e200013080000c038db80d,
  0x4c200056300000c094dc024,
  0xe0d466a3351800000000000000000000000000000ad956cab64000d4500000002c031e980b,
  0xad756c80015aead956bab655ae00000000000da00056b00002c039ea00d,
  0xad76a380015aed4756bb51d5ae00000000000da00056b00002c039ea80d,
  0xad756c00015aead856bab615ae00000000000da00056b00002c039eb00d,
  0x6470180000c8e0306a41934c8e00000000000da0000ce00002c039eb80d,
  0xe00006a480002c095ec024,
  0xe0d496a4b524000000000000000000000000000008824412208000d4a00000002c031ec80b,
  0xd4b0180001a960306a580c1a9600000000000da00043f80002c039ed00d,
  0xe0d4d6a6b53400000000000000000000000000000ae1570ab84000d4c00000002c031ed80b,
  0xadf57080015beae156fab855be00000000000da00056f00002c039ee00d,
  0xadf6a700015bed4e56fb5395be00000000000da00056f00002c039ee80d,
  0xadf57000015beae056fab815be00000000000da00056f00002c039ef00d,
  0x3001800000600306a8354006000000000000da0006a780002c039ef80d,
  0x2ca0d28001aa2d526a8b549aa2000000000086600016900002c039f000d,
  0xe043921c90e400000000000000000000000000000653329994c00043700000002c031f080b,
  0xe0443221abb400000000000000000000000000000d536a9b54c000aeb00000002c031f100b,
  0xe0070038227000000000000000000000000000000d546aa355000089a00000002c031f180b,
  0xe0d566ab355800000000000000000000000000000aea5752ba8000d5500000002c031f280b,
  0xae857500015d0aea5742ba95d000000000000da00057380002c039f300d,
  0xae86ab80015d0d57574355d5d000000000000da00057380002c039f380d,
  0xae857480015d0ae95742ba55d000000000000da00057380002c039f400d,
  0xe00006ac00002c095f4824,
  0x6580d28000cb01a56ac9980cb00000000000cae00033a80002c039f500d,
  0xe043921c90e400000000000000000000000000000d5a6ad356800043700000002c031f580b,
  0xe00006ad80002c095f6024,
  0xe0d5b6adb56c00000000000000000000000000000893449a24c000d5c00000002c031f680b,
  0xd5d0180001aba0306ae80c1aba00000000000da00044800002c039f700d,
  0xe0d5f6afb57c00000000000000000000000000000af457a2bd0000d5e00000002c031f780b,
  0xaf257a00015e4af45792bd15e400000000000da00057880002c039f800d,
  0xaf26b000015e4d6057935815e400000000000da00057880002c039f880d,
  0xaf257980015e4af35792bcd5e400000000000da00057880002c039f900d,
  0xe043921c90e40000000000000000000000000000043a21d10e800065200000002c031f980b,
  0x2ca0d500005941aa6b1b58859400000000000da0006b080002c039fa00d,
  0x2ca16880005942d16b1b59059400000000000da0006b080002c039fa80d,
  0xe0070038199c00000000000000000000000000000666333199800066500000002c031fb00b,
  0xe007003801c000000000000000000000000000000afa57d2be80000d300000002c031fb80b,
  0x30018000006003001800c0060000000000114c00003800002c039fc00d,
  0xe007003819b00000000000000000000000000000066b33599ac00066a00000002c031fc80b,
  0x1b40e000000000011408a06b32281140d65450228114000000000000000d300000002c09dfd026,
  0x15fe030018000006003001800c006000000000000da00003800002c109fd841,
  0xe000045100002c095fe024,
  0x30018000006003001800c006000000000000da00033480002c039fe80d,
  0x30018000006003033d99ec06000000000000da00033d00002c039ff00d,
  0x1ace030018000006003033d99ec06000000000000da00033d00002c109ff841,
  0x30018000006003033d99ec06000000000000da00033d00002c03a0000d,
  0x1b40e000000000000600300182c00060d6801800c006000000000000000d300000002c09e00826,
  0x30018000006003033d99ec060000000000114c0006b480002c03a0100d,
  0x30018000006003033d99ec060000000000114c0006b480002c03a0180d,
  0x30018000006003033d99ec060000000000114c0006b480002c03a0200d,
  0x1ad409804c000013009804c0260130000000000009800004b00003d0a021427,
  0x12c09604b19fc0000000000000000000000000000067e33f19f800067d00000003d0a406428,
  0x13012c000000000115c8ae6b622b915cd6b45722b915c000000000000009e00000003d0a813c29,
  0x12c09604b35bc00000000000000000000000000000d6e6b735b8000d6d00000003d0ac0642a,
  0x12c09604b35c800000000000000000000000000000d716b8b5c4000d7000000003d0b00642b,
  0x35d400000000000000000000000000000d746ba35d0000d7300000003d0b40042c,
  0x12c00058780003d0b812c2d,
  0x9804c0001aeed776bbb5ddaee0000000001aec00004b00003d0bc0742e,
  0x12c09604b025800000000000000000000000000000d786bc35e000009e00000003d0c00642f,
  0x12c09604b35c800000000000000000000000000000d796bcb5e4000d7000000003d0c406430,
  0x13012c000000000013009804c22dc130d7a04c0260130000000000000009e00000003d0c813c31,
  0x9804c000013009804c026013000000000000980006bd80003d0cc07432,
  0x6be00003d0d000433,
  0x12c09604b025800000000000000000000000000000b1658b2c5800009e00000003d0d406434,
  0x13012c000000000115c8ae6b635e115cd7d45722b915c000000000000009e00000003d0d813c35,
  0x9804c00001300980da86d41300000000001afc00034380003d0dc07436,
  0x12c09604b360400000000000000000000000000000d806c03600000d7f00000003d0e006437,
  0x9804c000013009804c026013000000000000980006c100003d0e407438,
  0x9804c000013009804c026013000000000000980006c180003d0e807439,
  0x6c200003d0ec0043a,
  0x9804c00001300986c3361813000000000000980006c280003d0f00743b,
  0x1b0e09804c00001300986c3361813000000000000980006c280003d0f42143c,
  0x1b1009804c00001300986c3361813000000000000980006c280003d0f80743d,
  0x23800003d0fc0043e,
  0x9804c00001300983491a4813000000000008c80006c480003d1018943f,
  0x9804c00001300983491a4813000000000008c80006c480003d1044e440,
  0x9804c00001300983491a4813000000000008c80006c480003d1084f441,
  0x1a8c00000000000000000000000000000d8a6c536280006a100000003d10d89c42,
  0x8e60006c580023d11012c43,
  0x8e6d8b6c5b62c000000000000000000000000000008cd466a334000d8c00000023d11406444,
  0xd8d23a8001b1a4756c691d5b1a00000000005d400046500023d11807445,
  0x5e6b265932c980000000000000000000000000000069a34d1a68000d8e00000013d11c06446,
  0x5e600059300013d12012c47,
  0x69834d0000d3069a34c1a68d30000000000038800017980013d12407448,
  0x9020006c780033d12812c49,
  0x902d8f6c7b63c000000000000000000000000000008d446a2350000d9000000033d12c0644a,
  0xd912418001b224836c8920db2200000000005f200046880033d1300744b,
  0x12c1bc0de06f00000000000000000000000000000069f34f9a7c000d9200000003cc380630d,
  0xf203d00001e407a07901e81e4000000000009800035000003cc3c0730e,
  0xf207400001e40e807903a01e4000000000009800035000003cc400730f,
  0x1cd04c000039a0980e6826039a000000000009800035000003cc4407310,
  0x59900003d1340044c,
  0x1b28d946ca3651b280000000001b2600000000003d1380044d,
  0xb33599accc00000000000003d13c0044e,
  0x46da36c00000000000000000006ca80003d1400044f,
  0x163c000000000000000046da36c00000000000000000006ca80003d14400450,
  0x1a8c00000000000000000000000000000d966cb36580006a100000003d14800451,
  0x1b2ed976cc365db2ed986cbb65db2e000000000000000000000003d14c00452,
  0x12c09604b366c00000000000000000000000000000d9a6cd3668000d9900000003d15006453,
  0x9804c000013009804c026013000000000000980006ce00003d15407454,
  0x9804c000013009804c026013000000000000980006ce80003d15807455,
  0x6cf00003d15c00456,
  0x12c00035600003cf458a3d0,
  0xda06d08001b40da16d03685b40000000000070a0006cf80003cb0d8aac2,
  0xda06d10001b40da26d03689b40000000000070a0006cf80003cb118b2c3,
  0x12c1cf0e7873c00000000000000000000000000000da36d1b68c0001ce00000003d1618bc57,
  0x1312da56d2b69400000000000000000000000000000b425a12d08000da400000017cb158c2c4,
  0xb405a10001680b425a02d096800000000000e9000059f80017cb198cac5,
  0xb406d30001680da65a036996800000000000e9000059f80017cb1d8d2c6,
  0xb405a08001680b415a02d056800000000000e9000059f80017cb218dac7,
  0xda86d48001b50da96d436a5b50000000000131e0006d380017cb258e2c8,
  0xda86d50001b50daa6d436a9b50000000000131e0006d380017cb298eac9,
  0xf203d0001b56dac6d5b6b1b56000000000009800007880003c6458f190,
  0x12c1cf0e7873c000000000000000000000000000006b13589ac40001ce00000003c64889991,
  0x12c49524ab6b800000000000000000000000000000dad6d6b6b400049200000003d1658fc58,
  0x49925080009324a124c928493200000000000980006d780003d16990459,
  0x49924e000093249c24c927093200000000000980006d780003d16d90c5a,
  0x12c00035a00003d17191c5b,
  0xdb16d90001b62db26d8b6c9b62000000000070a0006d800003d1759345c,
  0xdb16d98001b62db36d8b6cdb62000000000070a0006d800003d17993c5d,
  0x12c6cd366b6d800000000000000000000000000000db56dab6d4000db400000003d17d9445e,
  0x1312db86dc36e000000000000000000000000000000b515a8ad44000db700000017d18194c5f,
  0xb4f5a8800169eb515a7ad4569e0000000000e900005a700017d18595460,
  0xb4f6dc800169edb95a7b6e569e0000000000e900005a700017d18995c61,
  0xb4f5a8000169eb505a7ad4169e0000000000e900005a700017d18d96462,
  0xdbb6de0001b76dbc6ddb6f1b76000000000131e0006dd00017d19196c63,
  0xdbb6de8001b76dbd6ddb6f5b76000000000131e0006dd00017d19597464,
  0x12c0006df00003cbd597af4,
  0x4991858001b7edc06dfb701b7e000000000009800025100003cbd9982f5,
  0x12c6cd3669b34000000000000000000000000000006bb35d9aec0006cc00000003cbdd98af6,
  0x12c0006e080003d19999c65,
  0x9804c000013009835f1af81300000000001b860006e100003d19d9b466,
  0x12c09604b025800000000000000000000000000000dc46e2371000009e00000003d1a19ac67,
  0x13012c000000000013009804c2d70130dc504c0260130000000000000009e00000003d1a59bc68,
  0x9804c000013009835f1af81300000000001b860006e100003d1a99c469,
  0x9804c000013009835f1af8130000000000009800035e80003d1ad9cc6a,
  0x9804c000013009835f1af81300000000001b860006e100003d1b19d46b,
  0x12c6ba35d1ae8000000000000000000000000000004ab25592ac0008f100000003d1b4d246c,
  0xaacb5f5afad7c000000000000000000000000000006c73639b1c000dc60000002bd1b99dc6d,
  0xaac0005af8002bd1bd9e46e,
  0x6c53638000d8a6c73629b1cd8a000000000070a0002ab0002bd1c19ec6f,
  0x1b8e09804c00001300981bd8dec13000000000000980001bd00003d1c59f470,
  0x12c6c23611b08000000000000000000000000000006d03681b40000dc800000003d1c893471,
  0x499185800093230b24c8c2c932000000000009800036880003d1cc56c72,
  0x49924e000093249c24c9270932000000000009800036880003d1d08f473,
  0x6cb04c0000d960983658260d96000000000009800036880003d1d492c74,
  0xb3d59e00001e40e836a1b4c1e4000000000043a00036900003d1d92a475,
  0xb3d59e00001e40e836a1b4c1e4000000000043a00036d00003d1dd2ac76,
  0x12c2e61730b9800000000000000000000000000000dc96e4b72400046000000003d1e02ac77,
  0x46823380008ca0e836eb7288ca00000000008c800036d80003d1e44e478,
  0x46507700008ca0ee36eb72c8ca00000000008c800036d80003d1e84e479,
  0xf203d00001e407a6e69b701e400000000000980006e600003d1ec4ec7a,
  0x46503d00008ca07a36e9b708ca00000000008c800036d80003d1f04f47b,
  0xb3d59e00001e40e80f287981e4000000000043a00036f00003d1f52a47c,
  0xb3d59e00001e40e80f287981e4000000000043a00036f80003d1f92ac7d,
  0x12c6ba35d1ae800000000000000000000000000000b725b92dc80008f100000003d1fd3947e,
  0x49924e000093249c3719b88932000000000043a00037080003d20139c7f,
  0x499185800093230b3719b9c932000000000009800037300003d2053a480,
  0x12c6ba35d1ae800000000000000000000000000000b765bb2dd80008f100000003d2093c481,
  0xb4c5a5800093249c3719b88932000000000043a00037080003d20d3dc82,
  0xb4c5a5800093249c3719b88932000000000043a00037200003d2113e483,
  0x499185800093230b3719b9c9320000000000ee000037300003d2153ec84,
  0xe04cb265932c000000000000000000000000000004cc26613300006e800000002c91406244,
  0x1080f700002101ee6e8373c21000000000000da0006e700002c91807245,
  0x1080f880002101f16e8374421000000000000da0006e700002c91c07246,
  0xe06f737b9bd8000000000000000000000000000006f537a9bd4000dd200000002c20925081,
  0xdd46e980002101ee08407b821000000000000da0000f900002c20d25882,
  0x1080838000210107084041c21000000000000da0006ea80002c1e526078,
  0xdd46e980002101ee08407b821000000000000da0006ea80002c20d26882,
  0xdd76ec0001baedd86ebb761bae00000000000da0006eb00002c1e527078,
  0xddb6ed0001baedd96ebb765bae00000000000da0006eb00002c20d27882,
  0x32f018000065e03019780c065e00000000000da0006ea80002c1fd2607e,
  0xdd76ec8001baedd96ebb765bae00000000000da0006eb00002c20d28082,
  0x1080f880002101f108407c421000000000000da0006ea80002c12528848,
  0x1080f700002101ee08407b821000000000000da0006ea80002c20d28882,
  0xe06f737b9bdc00000000000000000000000000000ddc6ee37700006f400000002c20929081,
  0x1080f880002101f108407c421000000000000da0006ee80002c12529848,
  0x1080f700002101ee08407b821000000000000da0006ee80002c20d29882,
  0xdd46e980002101ee3759ba8210000000000057600037480002c9192a245,
  0xdd46e980002101ee3759ba8210000000000057600037c00002c9192aa45,
  0xdd46e980002101ee0fa87d0210000000000057600037c80002c20d2a082,
  0xdd46e980002101ee0fa87d0210000000000057600037d80002c20d2a882,
  0xe000049c80002c7a12b1e7,
  0x70226f0000e044de6f0377ce0400000000000da0006ef00002c1e52b878,
  0xe07003801bfc000000000000000000000000000006fe37f1bf8000de100000002c2092d081,
  0xde36f10000e044e3381138ce0400000000000da00038500002c20d2e082,
  0x70226f0000e044de3811378e0400000000000da0006f200002c1e52e878,
  0xde36f10000e044e3381138ce0400000000000da0006f200002c20d2f082,
  0xde66f38001bccde76f3379dbcc00000000000da0006f280002c1e52f878,
  0xdea6f48001bccde86f337a1bcc00000000000da0006f280002c20d30082,
  0x947018000128e0304a380c128e00000000000da0006f200002c1fd3087e,
  0xde66f40001bccde86f337a1bcc00000000000da0006f280002c20d31082,
  0xe07003801bfc000000000000000000000000000006fe37f1bf80006fd00000002c20931881,
  0x7023848000e047093811c24e0400000000000da0006f200002c12532048,
  0x7022718000e044e3381138ce0400000000000da0006f200002c20d32882,
  0xe07003801c0000000000000000000000000000000dec6f637b0000deb00000002c20933081,
  0x7023848000e047093811c24e0400000000000da0006f680002c12533848,
  0x7022718000e044e3381138ce0400000000000da0006f680002c20d34082,
  0xe093949ca4e400000000000000000000000000000b9d5ceae74000b8b00000002c54d39152,
  0x7022718000e044e33821c0ce04000000000057600038080002c20d39882,
  0x70226f0000e044de3821c30e0400000000000da00038580002c1e53a078,
  0xe00006f700002c3a53a8e8,
  0xe0dee6f737b8000000000000000000000000000009434a1a50c000def00000002c3a93b0e9,
  0xdf00180001be00306f800c1be000000000000da0004a000002c1fd3b87e,
  0xe093949ca4e400000000000000000000000000000ba55d2ae94000b8b00000002c54d3c152,
  0xe07003801bfc000000000000000000000000000006fe37f1bf80006fd00000002c2093c881,
  0xde36f10000e044e33821c0ce04000000000057600038080002c20d3d882,
  0xde36f10000e044e33821c0ce04000000000057600038380002c20d3e082,
  0x70226f0000e044de3821c30e04000000000114c00038580002c1e53e878,
  0x37cc00000000000000000000000000000df26f937c8000df100000001a00243485,
  0x1be8df46fab7d1be8df56fa37d1be8000000000000000000000001a00243c86,
  0x6fb00001a00244487,
  0xa2c0006fb80009a00244c88,
  0xa2cdf76fbb7dc0000000000000000000000000000094d4a6a534000df800000009a00245489,
  0xdf928c0001bf25186fc9461bf200000000006b80004a500009a00245c8a,
  0x711388000002a01500a805402a000000000007800038900001a0024648b,
  0x12a2bad5d6aeb40000000000000000000000000000071738b9c5c000dfa00000005a00246c8c,
  0x12a20005d680005a0024748d,
  0x71538b8000e2a71738a9c5ce2a0000000000e280004a880005a00247c8e,
  0x17640006fd8000da0024848f,
  0x1764dfb6fdb7ec0000000000000000000000000000095a4ad2568000dfc0000000da00248c90,
  0x1764bb25d92ec800000000000000000000000000000bb45da2ed0000bb30000000da0000600b,
  0x17640005d90000da00012824,
  0xbb45da0001768bb45da2ed176800000000012ae0005d90000da0000700d,
  0x1768bb45da0001768bb45da2ed176800000000012ae0005d90000da00021041,
  0xdfd5da0001bfabb46feaed1bfa00000000012ae0004ab0000da00249491,
  0x7e20210108080000000000000000000000000000071a38d1c6800070f00000001a00249c92,
  0x1500a800002a01500a805402a000000000007800010100001a0024a493]

def splitStates6 : List Nat := [
  0x20d091000041a12270037fc41a00000000009f40006ff00001a0024ac94,
  0x20d10a000041a214700380441a00000000009f40006ff00001a0024b495,
  0x20d08e800041a11d38e9c7041a00000000009f400070100001a0024bc96,
  0x1500a800002a0151a90d4802a00000000009f40004b900001a0024c497,
  0x381400000000000000000000000000000e047023810000e0300000001a0024cc98,
  0xa2c00070300009a0024d499,
  0xa2ce067033818000000000000000000000000000009644b22590000e0700000009a0024dc9a,
  0xe0828c0001c105187041461c1000000000006b80004b080009a0024e49b,
  0x7e34f1a78d3c00000000000000000000000000000bc35e1af0c0004f500000001a0024ec9c,
  0x723391000041a122106848841a000000000007800039200001a0024f49d,
  0x20d08e800041a11d106847441a0000000000e7600010a80001a0024fc9e,
  0x12a2bc45e22f10000000000000000000000000000007283941ca0000e0900000005a0025049f,
  0x12a20005e200005a00250ca0,
  0x7263940000e4c7283931ca0e4c0000000000e280004a880005a002514a1,
  0x17640007050000da00251ca2,
  0x1764e0a70538280000000000000000000000000000096e4b725b8000e0b0000000da002524a3,
  0xe0c5da0001c18bb47062ed1c1800000000012ae0004b58000da00252ca4,
  0x7e20810408200000000000000000000000000000072c3961cb0000e0d00000001a002534a5,
  0x20d08e800041a11d106847441a000000000007800039680001a00253ca6,
  0x20d091000041a122106848841a000000000007800039680001a002544a7,
  0x36300a80006c60151b180546c6000000000007800039680001a00254ca8,
  0x12f201500a800002a0151aa8d5402a00000000000780001aa00001a002554a9,
  0x1c1c01500a800002a0151aa8d5402a00000000000780001aa00001a00255caa,
  0x1500a800002a01500a805402a00000000000780003a000001a002564ab,
  0x70780001a00256cac,
  0x17a001500a800002a01500a805402a000000000007800001f80001a002574ad,
  0x7e03f01f9cf80000000000000000000000000000073d39e9cf400073c00000001a00257cae,
  0x384800000000000000000000000000000e11708b844000e1000000003d21a43485,
  0x1c26e1370a384dc26e14709b84dc26000000000000000000000003d21e43c86,
  0x70a80003d22244487,
  0xaac00070b0002bd2c244caf,
  0xaace1670b3858000000000000000000000000000009854c2a614000e170000002bd2c6454b0,
  0xe182ac0001c3055870c1561c30000000000070a0004c10002bd2ca45cb1,
  0x7453a2000003e04f00f813c03e00000000000980003a300003d2ce464b2,
  0x1312bdb5edaf6c0000000000000000000000000000074b3a59d2c000e1900000017d2d246cb3,
  0x13120005ed80017d2d6474b4,
  0x7493a58000e9274b3a49d2ce920000000000e900004c480017d2da47cb5,
  0x17c000070d0003fd2de484b6,
  0x17c0e1a70d3868000000000000000000000000000009924c92648000e1b0000003fd2e248cb7,
  0x17c0be05f02f8000000000000000000000000000000be25f12f88000be10000003fc0300600b,
  0x17c00005f00003fc09412824,
  0xbe25f100017c4be25f12f897c4000000000131e0005f00003fc0380700d,
  0x17c4be25f100017c4be25f12f897c4000000000131e0005f00003fc10821041,
  0xe1c5f10001c38be270e2f89c38000000000131e0004c70003fd2e6494b8,
  0x12c22211108880000000000000000000000000000074e3a71d3800074300000003d2ea49cb9,
  0x1f00f000003e01e00f807803e00000000000980003a780003d2ee4a4ba,
  0x1f027800003e04f00f813c03e00000000000980003a780003d2f24a4bb,
  0xa104c0000142098050826014200000000000980003a780003d2f64a4bc,
  0x22d09e800045a13d70fb87845a0000000000a7400070e80003d2fa4acbd,
  0x22d11a000045a23470fb88045a0000000000a7400070e80003d2fe4b4be,
  0x22d09c000045a1383a91d4445a0000000000a7400071080003d3024bcbf,
  0x9804c00001300981bd8dec1300000000000a740004d580003d2624c497,
  0x389000000000000000000000000000000e23711b88c000e2200000003d2664cc98,
  0xaac0007128002bd3064d4c0,
  0xaace25712b8940000000000000000000000000000099d4cea674000e260000002bd30a4dcc1,
  0xe272ac0001c4e5587139561c4e000000000070a0004cd0002bd30e4e4c2,
  0x12c3781bc0de000000000000000000000000000000bf35f9afcc00053500000003d3124ecc3,
  0x7583ab800045a13d11684f445a00000000000980003ac80003d3164f4c4,
  0x22d09c000045a13811684e045a0000000000ee000011a80003d31a4fcc5,
  0x1312bf45fa2fd00000000000000000000000000000075d3ae9d74000e2800000017d31e504c6,
  0x13120005fa00017d32250cc7,
  0x75b3ae8000eb675d3ad9d74eb60000000000e900004c480017d326514c8,
  0x17c00007148003fd32a51cc9,
  0x17c0e29714b8a4000000000000000000000000000009a74d3a69c000e2a0000003fd32e524ca,
  0xe2b5f10001c56be2715af89c56000000000131e0004d20003fd33252ccb,
  0x12c22811408a0000000000000000000000000000007613b09d84000e2c00000003d336534cc,
  0x22d09c000045a13811684e045a00000000000980003b100003d33a53ccd,
  0x22d09e800045a13d11684f445a00000000000980003b100003d33e544ce,
  0x38c04c00007180981c6026071800000000000980003b100003d34254ccf,
  0x136409804c00001300981bf0df813000000000000980001be80003d2aa554a9,
  0x1c5a09804c00001300981bf0df813000000000000980001be80003d2ae55caa,
  0x9804c000013009804c026013000000000000980003ba80003d2b2564ab,
  0x71700003d2b656cac,
  0x180009804c000013009804c0260130000000000009800004b00003d2ba574ad,
  0x12c09604b1dcc000000000000000000000000000007723b91dc800077100000003d2be57cae,
  0x12c77a3bd1de4000000000000000000000000000007783bc1de0000e2f00000003c92925249,
  0xe31718000013009804c0260130000000000009800004b00003c92d25a4a,
  0x9804c000013009804c0260130000000000009800071900003c9312624b,
  0xe31718000013009804c0260130000000000009800071900003c93526a4c,
  0xe3471a8001c68e3571a38d5c680000000000e9000071980003c9392724d,
  0xe3871b8001c68e3671a38d9c680000000000e9000071980003c93d27a4e,
  0xe3471b0001c68e3671a38d9c680000000000e9000071980003c9412824f,
  0x9804c000013009804c0260130000000000009800071900003c94528a50,
  0x12c77a3bd1de800000000000000000000000000000e3971cb8e400077700000003c94929251,
  0x9804c000013009804c026013000000000000980003bd00003c94d29a52,
  0xe31718000013009811d08e8130000000000043a0003bb00003c9512a253,
  0xe31718000013009811d08e8130000000000043a0003bd80003c9552aa54,
  0x12c0004e300003c9592b255,
  0x7822b70000f0456e71e38ecf04000000000009800071d00003c95d2ba56,
  0x12c7803c01dfc0000000000000000000000000000077e3bf1df8000e3d00000003c9692d259,
  0xe3f71f0000f045733c115ccf0400000000000980003c500003c9712e25b,
  0x7822b70000f0456e3c115b8f04000000000009800072000003c9752ea5c,
  0xe3f71f0000f045733c115ccf04000000000009800072000003c9792f25d,
  0xe427218001c84e43721390dc840000000000e9000072080003c97d2fa5e,
  0xe467228001c84e447213911c840000000000e9000072080003c9813025f,
  0x9d404c00013a80984ea02613a8000000000009800072000003c98530a60,
  0xe427220001c84e447213911c840000000000e9000072080003c98931261,
  0x12c7803c01dfc0000000000000000000000000000077e3bf1df800077d00000003c98d31a62,
  0x7823c48000f047893c11e24f04000000000009800072000003c99132263,
  0x7822b98000f045733c115ccf04000000000009800072000003c99532a64,
  0x12c7803c01e0000000000000000000000000000000e487243920000e4700000003c99933265,
  0x7823c48000f047893c11e24f04000000000009800072480003c99d33a66,
  0x7822b98000f045733c115ccf04000000000009800072480003c9a134267,
  0x12c9c64e3271800000000000000000000000000000c226113088000c1000000003c9c939271,
  0x7822b98000f045733c21e0cf04000000000043a0003c080003c9cd39a72,
  0x7822b70000f0456e3c21e30f0400000000000980003c580003c9d13a273,
  0xaac0007250002bc9d53aa74,
  0xaace4a7253928000000000000000000000000000009d04e82740000e4b0000002bc9d93b275,
  0xe4c2ac0001c985587261561c98000000000070a0004e68002bc9dd3ba76,
  0x12c9c64e3271800000000000000000000000000000c2a61530a8000c1000000003c9e13c277,
  0x12c7803c01dfc0000000000000000000000000000077e3bf1df800077d00000003c9e53ca78,
  0xe3f71f0000f045733c21e0cf04000000000043a0003c080003c9ed3da7a,
  0xe3f71f0000f045733c21e0cf04000000000043a0003c380003c9f13e27b,
  0x7822b70000f0456e3c21e30f040000000000ee00003c580003c9f53ea7c,
  0xe0e4e727393800000000000000000000000000000c2e61730b8000e4d00000002c0f1e983b,
  0xc2c6170001858c2e61630b985800000000000da00061580002c06dea01a,
  0xc2c7278001858e4f616393d85800000000000da00061580002c069ea819,
  0xc2c6168001858c2d61630b585800000000000da00061580002c0e1eb037,
  0x78e02f0000f1c05e7281e54f1c00000000000da00012300002c0e1eb837,
  0xe000072880002c199ec065,
  0xe0e51728b944000000000000000000000000000009dd4eea774000e5200000002c189ec861,
  0xe530180001ca603072980c1ca600000000000da0004ed00002c0eded03a,
  0xe0e5572ab95400000000000000000000000000000c3661b30d8000e5400000002c0f1ed83b,
  0xc3461b0001868c3661a30d986800000000000da00061980002c06dee01a,
  0xc3472b0001868e5661a395986800000000000da00061980002c069ee819,
  0xc3461a8001868c3561a30d586800000000000da00061980002c0e1ef037,
  0x5f05880000be0b172cb9600be00000000000da00072b80002c06def81a,
  0x5f05a00000be0b472cb9680be00000000000da00072b80002c069ef819,
  0x3aa1278001cb6e5c72db971cb600000000008660001d900002c0e1f0037,
  0xe05842c216100000000000000000000000000000079d3ce9e7400058200000002c189f0861,
  0xe05892c4b10800000000000000000000000000000e5d72eb974000c4000000002c0f1f103b,
  0xe0e5f72fb97c00000000000000000000000000000c3f61fb0fc000e5e00000002c0f1f283b,
  0xc3d61f800187ac3f61eb0fd87a00000000000da00061e00002c06df301a,
  0xc3d730000187ae6061eb98187a00000000000da00061e00002c069f3819,
  0xc3d61f000187ac3e61eb0f987a00000000000da00061e00002c0e1f4037,
  0xe000073080002c199f4865,
  0x79f1278000f3e24f7311e9cf3e0000000000cae0003d980002c0e1f5037,
  0xe05842c2161000000000000000000000000000000e63731b98c00058200000002c189f5861,
  0xe000073200002c199f6065,
  0xe0e647323990000000000000000000000000000009ec4f627b0000e6500000002c189f6861,
  0xe660180001ccc03073300c1ccc00000000000da0004f480002c0edf703a,
  0xe0e6873439a000000000000000000000000000000c49624b124000e6700000002c0f1f783b,
  0xc47624800188ec49623b12588e00000000000da00062300002c06df801a,
  0xc47734800188ee69623b9a588e00000000000da00062300002c069f8819,
  0xc47624000188ec48623b12188e00000000000da00062300002c0e1f9037,
  0xe05842c21610000000000000000000000000000005852c2961400079c00000002c2d9f98b5,
  0x3aa12a000075425473639ac75400000000000da00073500002c06dfa01a,
  0x3aa1d880007543b173639b475400000000000da00073500002c069fa819,
  0xe00004f900002c4a9fe129,
  0x1cdc1950ca800032a1950ca865432a00000000002e200013080000d0a021041,
  0x4c22611309ee4000000000000000000000000000007b83dc1ee00007b700000000d0a40600b,
  0x5c44c200000000013ee9f773827dd3eee6f4fba7dd3ee000000000000026d00000000d0a813826,
  0x4c2261130b9cc00000000000000000000000000000e7273939c8000e7100000000d0ac0600b,
  0x4c2261130b9d800000000000000000000000000000e7573ab9d4000e7400000000d0b00600b,
  0x4c200062a80000d0b812824,
  0x1950ca8001cf0e7873c39e1cf00000000001cee00013080000d0bc0700d,
  0x4c2261130898400000000000000000000000000000e7973cb9e400026d00000000d0c00600b,
  0x4c2261130b9d800000000000000000000000000000e7a73d39e8000e7400000000d0c40600b,
  0x5c44c2000000000032a1950caa7fc32ae7b0ca865432a000000000000026d00000000d0c813826,
  0x1950ca800032a1950ca865432a00000000002e200073e00000d0cc0700d,
  0x4c2261130898400000000000000000000000000000c5b62db16c00026d00000000d0d40600b,
  0x5c44c200000000013ee9f773839e53eee7d4fba7dd3ee000000000000026d00000000d0d813826,
  0x1950ca800032a195132099032a0000000001cfc0003e080000d0dc0700d,
  0x4c2261130ba0400000000000000000000000000000e807403a00000e7f00000000d0e00600b,
  0x1950ca800032a1950ca865432a00000000002e200074100000d0e40700d,
  0x1950ca800032a1950ca865432a00000000002e200074180000d0e80700d,
  0x1950ca800032a195742ba1432a00000000002e200074200000d0f00700d,
  0x1d0c1950ca800032a195742ba1432a00000000002e200074200000d0f421041,
  0x1950ca800032a195742ba1432a00000000002e200074200000d0f80700d,
  0x1950ca800032a1953e61f3032a0000000000b5000074380000d1018900d,
  0x1950ca800032a1953e61f3032a0000000000b5000074380000d1044e00d,
  0x1950ca800032a1953e61f3032a0000000000b5000074380000d1084f00d,
  0x4c200074400000d11012824,
  0x4c2e887443a2000000000000000000000000000000a1450a2850000e8900000000d1140600b,
  0xe8a0ca8001d141957450655d1400000000002e200050880000d1180700d,
  0x4c2c6863431a0000000000000000000000000000007d43ea1f50000e8b00000000d11c0600b,
  0x4c200063400000d12012824,
  0x7d23ea0000fa47d43e91f50fa400000000002e200013080000d1240700d,
  0x4c200074600000d12812824,
  0x4c2e8c7463a3000000000000000000000000000000a1b50da86c000e8d00000000d12c0600b,
  0xe8e0ca8001d1c1957470655d1c00000000002e200050c00000d1300700d,
  0x4c226c13609b0000000000000000000000000000007d93ec9f64000e8f00000000cc380600b,
  0x17206000002e40c00b903002e400000000002e20003ed00000cc3c0700d,
  0x1720b380002e41670b9059c2e400000000002e20003ed00000cc400700d,
  0x27d0ca80004fa19513e86544fa00000000002e20003ed00000cc440700d,
  0x4c2261130ba4800000000000000000000000000000e91748ba44000e9000000000d1500600b,
  0x1950ca800032a1950ca865432a00000000002e200074980000d1540700d,
  0x1950ca800032a1950ca865432a00000000002e200074a00000d1580700d,
  0x4c20003f180000cf458a024,
  0xe9674b8001d2ce9774b3a5dd2c00000000002e200074a80000cb0d8a80d,
  0xe9674c0001d2ce9874b3a61d2c00000000002e200074a80000cb118b00d,
  0x4c227f13f89fc00000000000000000000000000000e9974cba6400027e00000000d1618b80b,
  0x4c2e9b74dba6c00000000000000000000000000000c7c63e31f0000e9a00000000cb158c00b,
  0xc7a63e00018f4c7c63d31f18f400000000002e200063c80000cb198c80d,
  0xc7a74e00018f4e9c63d3a718f400000000002e200063c80000cb1d8d00d,
  0xc7a63d80018f4c7b63d31ed8f400000000002e200063c80000cb218d80d,
  0xe9e74f8001d3ce9f74f3a7dd3c00000000002e200074e80000cb258e00d,
  0xe9e7500001d3cea074f3a81d3c00000000002e200074e80000cb298e80d,
  0x1720600001d42ea2750ba89d4200000000002e20000b800000c6458f00d,
  0x4c227f13f89fc000000000000000000000000000007e83f41fa000027e00000000c6488980b,
  0x4c25d02e83a9000000000000000000000000000000ea3751ba8c0005cd00000000d1658f80b,
  0x5d52ee8000baa5dd2ea9774baa00000000002e200075280000d1699000d,
  0x5d52ec0000baa5d82ea9760baa00000000002e200075280000d16d9080d,
  0x1950ca800032a1950ca865432a00000000002e200075300000cc899100d,
  0x4c20003f580000d17191824,
  0x19081950ca800032a1953fa9fd432a00000000002e20003fa00000cc9192041,
  0x1950ca800032a1953fa9fd432a00000000002e20003fa00000cc959280d,
  0xea87548001d50ea97543aa5d5000000000002e200075380000d1759300d,
  0xea87550001d50eaa7543aa9d5000000000002e200075380000d1799380d,
  0x4c2807403bab400000000000000000000000000000eac7563ab0000eab00000000d17d9400b,
  0x4c2eaf757babc00000000000000000000000000000c8e6473238000eae00000000d1819480b,
  0xc8c6470001918c8e646323991800000000002e200064580000d1859500d,
  0xc8c7580001918eb06463ac191800000000002e200064580000d1899580d,
  0xc8c6468001918c8d646323591800000000002e200064580000d18d9600d,
  0xeb27598001d64eb37593acdd6400000000002e200075880000d1919680d,
  0xeb275a0001d64eb47593ad1d6400000000002e200075880000d1959700d,
  0x4c200075a80000cbd597824,
  0x5d51f18001d6ceb775b3addd6c00000000002e20002ef00000cbd99800d,
  0x4c2807403a01c000000000000000000000000000007f33f99fcc00080600000000cbdd9880b,
  0x1950ca800032a1953fa9fd432a000000000147000075c00000ccc99900d,
  0x4c200075c80000cccd99824,
  0x1950ca800032a1953fa9fd432a000000000147000075c00000ccd19a00d,
  0x4c2261130898400000000000000000000000000000eba75d3ae800026d00000000ccd59a80b,
  0x4c200075d80000d19999824,
  0x1950ca800032a1953fc1fe032a0000000001d7a00075e00000d19d9b00d,
  0x4c2261130898400000000000000000000000000000ebe75f3af800026d00000000d1a19a80b,
  0x5c44c2000000000032a1950cab27432aebf0ca865432a000000000000026d00000000d1a59b826,
  0x1950ca800032a1953fc1fe032a0000000001d7a00075e00000d1a99c00d,
  0x1950ca800032a1953fc1fe032a00000000002e20003fb80000d1ad9c80d,
  0x1950ca800032a1953fc1fe032a0000000001d7a00075e00000d1b19d00d,
  0x4c27f23f91fc8000000000000000000000000000005e82f417a0000a3300000000d1b4d200b,
  0x4c2ca0650328000000000000000000000000000000801400a004000ec000000000d1b99d80b,
  0x4c200065000000d1bd9e024,
  0x7ff4008000ffe8013ffa004ffe00000000002e200013080000d1c19e80d,
  0x1d821950ca800032a1953fa9fd432a00000000002e20003fa00000d1c59f041,
  0x5c44c20000000001d84ec27623b09d84ec37613b09d84000000000000026d00000000ccfd9f826,
  0x4c200065380000cd01a0024,
  0x1950ca8001d8cec67633b19d8c0000000001d8a00013080000cd05a080d,
  0x4c2261130898400000000000000000000000000000ec27613b0800026d00000000cd09a100b,
  0x4c2261130b25c00000000000000000000000000000ec7763bb1c000c9500000000cd0da180b,
  0x4c2261130b25c00000000000000000000000000000ec87643b20000c9500000000cd11a200b,
  0x4c27fc3fe1ff00000000000000000000000000000080c4062030000ec900000000d1c89300b,
  0x5d51f18000baa3e32ea8f8cbaa00000000002e200040680000d1cc5680d,
  0x5d52ec0000baa5d82ea9760baa00000000002e200040680000d1d08f00d,
  0x8050ca800100a195402865500a00000000002e200040680000d1d49280d,
  0x4c2261130898400000000000000000000000000000eca7653b2800026d00000000c9212400b,
  0xc7763b00002e4167409a0482e4000000000102200040800000d1d92a00d,
  0xc7763b00002e4167409a0482e4000000000102200040c80000d1dd2a80d,
  0x4c23c51e28f1400000000000000000000000000000ecb765bb2c0005a400000000d1e02a80b,
  0x5ac2d58000b5216740e3b30b520000000000b5000040d00000d1e44e00d,
  0x5a90b68000b5216d40e3b34b520000000000b5000040d00000d1e84e00d,
  0x17206000002e40c0767a06c2e400000000002e200076700000d1ec4e80d,
  0x5a90600000b520c040e206cb520000000000b5000040d00000d1f04f00d,
  0xc7763b00002e416714b0a5c2e4000000000102200040e80000d1f52a00d,
  0xc7763b00002e416714b0a5c2e4000000000102200040f00000d1f92a80d,
  0x4c2261130b25c00000000000000000000000000000ed07683b40000c9500000000c9b53680b,
  0x4c200065d80000c9b937024,
  0x1950ca8001da4ed27693b49da40000000001da200013080000c9bd3780d,
  0x4c2261130898400000000000000000000000000000ed3769bb4c00026d00000000c9c13800b,
  0x4c2261130b25c00000000000000000000000000000ed476a3b50000c9500000000c9c53880b,
  0x4c27f23f91fc800000000000000000000000000000cbf65fb2fc000a3300000000d1fd3900b,
  0x5d52ec0000baa5d8412208cbaa000000000102200041100000d2013980d,
  0x5d51f18000baa3e341220a0baa00000000002e200041380000d2053a00d,
  0x4c27f23f91fc800000000000000000000000000000cc46623310000a3300000000d2093c00b,
  0x5c44c2000000000146ca36643bb4d46ced551b28d946c000000000000026d00000000c9e93d026,
  0xc896440000baa5d8412208cbaa000000000102200041100000d20d3d80d,
  0xc896440000baa5d8412208cbaa000000000102200041280000d2113e00d,
  0x5d51f18000baa3e341220a0baa000000000194800041380000d2153e80d,
  0xedb76d0001dae19576cbb61dae00000000002e200076b00000c65ccb80d,
  0xed70ca8001dae19576cbb61dae00000000002e200076b00000c660cc00d,
  0xedc76d000032a1950ca865432a00000000002e200013080000c664cc80d,
  0x1950ca800032a19576ebb7432a00000000002e200041580000c668cd00d,
  0x1950ca800032a19576fbb7c32a00000000002e200076f00000c66ccd80d,
  0xed70ca8001dc0829770a0b1dc00000000000bd600041580000c670ce00d,
  0x4c2cd1668b34400000000000000000000000000000ee3771bb8c000ee200000000c674ce80b,
  0xee97740001dca838773bb99dca000000000147000077200000c67ccf80d,
  0xee55458001dcaa8b773bba9dca000000000147000077200000c680d000d,
  0xeeb774000150883854220e150800000000002e200054600000c684d080d,
  0x4c200066880000c688d1024,
  0xa8441980015088337773bb550800000000002e200077600000c68cd180d,
  0x4c2cd1668b3440000000000000000000000000000083841c20e0000ee200000000c690d200b,
  0xa844198001508833778bbc150800000000002e200077780000c694d280d,
  0x4c200077900000c6acd5824,
  0xa844198001de6832779a0c9de60000000000bd600054600000c6b0d600d,
  0x4c2cd1668b34400000000000000000000000000000ef477a3bd0000ccf00000000c6b4d680b,
  0x4c2cd1668b3440000000000000000000000000000083841c20e0000ccf00000000c6b8d700b,
  0x4c2cd666b33580000000000000000000000000000083a41d20e8000ce000000000c6bcd780b,
  0x4c2ef677b3bd800000000000000000000000000000cdb66db36c000ef500000000c6c0d800b,
  0xcd966d80019b2cdb66cb36d9b200000000002e200066c00000c6c4d880d,
  0xcd977b80019b2ef766cbbdd9b200000000002e200066c00000c6c8d900d,
  0xcd966d00019b2cda66cb3699b200000000002e200066c00000c6ccd980d,
  0x4c200077c00000c6d0da024,
  0xee54198001df483277da0c1df4000000000198200077c80000c6d4da80d,
  0x4c2cd1668b34400000000000000000000000000000efc77e3bf0000ccf00000000c6d8db00b,
  0xa8441c000150883854220e150800000000002e200013080000c6dcdb80d,
  0x4c200066880000c6e0dc024,
  0x4c2261130898400000000000000000000000000000efd77ebbf400026d00000000c0312400b,
  0x4c2849424a12000000000000000000000000000000847423a11c000efe00000000c2092500b,
  0xf0077f80002e41670b9059c2e400000000002e20000b800000c20d2580d,
  0x17206000002e40c00b903002e400000000002e200078080000c1e52600d,
  0xf0077f80002e41670b9059c2e400000000002e200078080000c20d2680d,
  0xf037820001e06f04781bc11e0600000000002e200078100000c1e52700d,
  0xf077830001e06f05781bc15e0600000000002e200078100000c20d2780d,
  0x27d0ca80004fa19513e86544fa00000000002e200078080000c1fd2600d,
  0xf037828001e06f05781bc15e0600000000002e200078100000c20d2800d,
  0x1720b680002e416d0b905b42e400000000002e200078080000c1252880d,
  0x1720b380002e41670b9059c2e400000000002e200078080000c20d2880d,
  0x4c2849424a12400000000000000000000000000000f087843c2000084600000000c2092900b,
  0x1720b680002e416d0b905b42e400000000002e200078480000c1252980d,
  0x1720b380002e41670b9059c2e400000000002e200078480000c20d2980d,
  0xf0077f80002e416742020fc2e4000000000107c00041e80000c9192a00d,
  0xf0077f80002e416742020fc2e4000000000107c00042500000c9192a80d,
  0xf0077f80002e41671560aac2e4000000000107c00042580000c20d2a00d,
  0xf0077f80002e41671560aac2e4000000000107c00042680000c20d2a80d,
  0x4c200055180000c7a12b024,
  0x85731400010ae6287863c2d0ae00000000002e200078500000c1e52b80d,
  0x1e1a1950ca800032a1950ca865432a00000000002e200013080000c1092c041,
  0x1950ca800032a1955532a9832a00000000002e200055280000c0392c80d,
  0x4c28524292144000000000000000000000000000008504282140000f0e00000000c2092d00b,
  0x5c44c200000000019eccf678833d99ecf0f67b33d99ec000000000000026d00000000c09d2d826,
  0xf1278880010ae62d42b98b50ae00000000002e200042f80000c20d2e00d,
  0x85731400010ae62842b98a10ae00000000002e200078980000c1e52e80d,
  0xf1278880010ae62d42b98b50ae00000000002e200078980000c20d2f00d,
  0xf1578b0001e2af1678abc59e2a00000000002e200078a00000c1e52f80d,
  0xf1978c0001e2af1778abc5de2a00000000002e200078a00000c20d3000d,
  0xab60ca800156c19555b065556c00000000002e200078980000c1fd3080d,
  0xf1578b8001e2af1778abc5de2a00000000002e200078a00000c20d3100d,
  0x4c2852429214400000000000000000000000000000850428214000084f00000000c2093180b,
  0x85742f00010ae85e42ba1790ae00000000002e200078980000c1253200d,
  0x85731680010ae62d42b98b50ae00000000002e200078980000c20d3280d,
  0x4c2852429214800000000000000000000000000000f1b78dbc6c000f1a00000000c2093300b,
  0x85742f00010ae85e42ba1790ae00000000002e200078e00000c1253380d,
  0x85731680010ae62d42b98b50ae00000000002e200078e00000c20d3400d,
  0x4c200068400000c09534824,
  0x1950ca8001e3af1d78ebc75e3a000000000153a00013080000c0393500d,
  0x4c2261130898400000000000000000000000000000cf667b33d800026d00000000c0313580b,
  0x4c2261130bc8000000000000000000000000000000f1f78fbc7c000f1e00000000c0313600b,
  0x4c2261130bc8000000000000000000000000000000f21790bc84000f1e00000000c0313680b,
  0x4c200068680000c09537024,
  0x1950ca8001e46f23791bc8de460000000001e4400013080000c0393780d,
  0x4c2261130898400000000000000000000000000000f247923c9000026d00000000c0313800b,
  0x4c2261130bc8000000000000000000000000000000f25792bc94000f1e00000000c0313880b,
  0x4c2aa3551aa8c00000000000000000000000000000d11688b444000cf300000000c54d3900b,
  0x85731680010ae62d42ca1610ae000000000107c00042b00000c20d3980d,
  0x85731400010ae62842ca1890ae00000000002e200043000000c1e53a00d,
  0x4c200079300000c3a53a824,
  0x4c2f267933c9800000000000000000000000000000ab25592ac8000f2700000000c3a93b00b,
  0xf280ca8001e501957940655e5000000000002e200055780000c1fd3b80d,
  0x4c2aa3551aa8c00000000000000000000000000000d1a68d3468000cf300000000c54d3c00b,
  0x4c2852429214400000000000000000000000000000850428214000084f00000000c2093c80b,
  0x5c44c200000000019eccf67883c919ecf2967b33d99ec000000000000026d00000000c09d3d026,
  0xf1278880010ae62d42ca1610ae000000000107c00042b00000c20d3d80d,
  0xf1278880010ae62d42ca1610ae000000000107c00042e00000c20d3e00d,
  0x85731400010ae62842ca1890ae0000000001e5400043000000c1e53e80d,
  0x4c2261130bcb400000000000000000000000000000f2c7963cb0000f2b00000000c0313f00b,
  0x1950ca800032a1950ca865432a00000000002e200079700000c0393f80d,
  0x1950ca800032a1950ca865432a00000000002e200079780000c0394000d,
  0x4c2867433a19800000000000000000000000000000865432a194000f3000000000c0312500b,
  0xf32798800032a1950ca865432a00000000002e200013080000c0392580d,
  0x1950ca800032a1950ca865432a00000000002e200079980000c0392600d,
  0xf32798800032a1950ca865432a00000000002e200079980000c0392680d,
  0xf3579b0001e6af3679abcd9e6a00000000002e200079a00000c0392700d,
  0xf3979c0001e6af3779abcdde6a00000000002e200079a00000c0392780d,
  0xf3579b8001e6af3779abcdde6a00000000002e200079a00000c0392800d,
  0x1950ca800032a1950ca865432a00000000002e200079980000c0392880d,
  0x4c2867433a19c00000000000000000000000000000f3a79d3ce800086400000000c0312900b,
  0x1950ca800032a1950ca865432a00000000002e200043380000c0392980d,
  0xf32798800032a19515a0ad032a000000000107c00043180000c0392a00d,
  0xf32798800032a19515a0ad032a000000000107c00043400000c0392a80d,
  0x4c200056300000c0952b024,
  0x86f31e00010de63c79ebcf10de00000000002e200079d80000c0392b80d,
  0x4c286d436a1b00000000000000000000000000000086b435a1ac000f3e00000000c0312d00b,
  0xf4079f80010de64143799050de00000000002e200043b80000c0392e00d,
  0x86f31e00010de63c43798f10de00000000002e20007a080000c0392e80d,
  0xf4079f80010de64143799050de00000000002e20007a080000c0392f00d,
  0xf437a20001e86f447a1bd11e8600000000002e20007a100000c0392f80d,
  0xf477a30001e86f457a1bd15e8600000000002e20007a100000c0393000d,
  0xad40ca80015a819556a06555a800000000002e20007a080000c0393080d,
  0xf437a28001e86f457a1bd15e8600000000002e20007a100000c0393100d,
  0x4c286d436a1b00000000000000000000000000000086b435a1ac00086a00000000c0313180b,
  0x86f43b00010de876437a1d90de00000000002e20007a080000c0393200d,
  0x86f32080010de64143799050de00000000002e20007a080000c0393280d,
  0x4c286d436a1b400000000000000000000000000000f497a4bd24000f4800000000c0313300b,
  0x86f43b00010de876437a1d90de00000000002e20007a500000c0393380d,
  0x86f32080010de64143799050de00000000002e20007a500000c0393400d,
  0x4c2ac65632b1800000000000000000000000000000d3c69e34f0000d2a00000000c0313900b,
  0x86f32080010de641438a1c10de000000000107c00043700000c0393980d,
  0x86f31e00010de63c438a1e50de00000000002e200043c00000c0393a00d,
  0x4c20007a580000c0953a824,
  0x4c2f4b7a5bd2c00000000000000000000000000000ad05682b40000f4c00000000c0313b00b,
  0xf4d0ca8001e9a1957a68655e9a00000000002e200056680000c0393b80d,
  0x4c2ac65632b1800000000000000000000000000000d446a23510000d2a00000000c0313c00b,
  0x4c286d436a1b00000000000000000000000000000086b435a1ac00086a00000000c0313c80b,
  0xf4079f80010de641438a1c10de000000000107c00043700000c0393d80d,
  0xf4079f80010de641438a1c10de000000000107c00043a00000c0393e00d,
  0x86f31e00010de63c438a1e50de0000000001e5400043c00000c0393e80d,
  0xe00007a700002c09644824,
  0xe0f4e7a73d3800000000000000000000000000000ad956cab64000f4f00000002c0324500b,
  0xf500180001ea00307a800c1ea000000000000da00056b00002c03a4580d,
  0x87d43e000006003001800c006000000000000da00043f00002c03a4600d,
  0xe0d496a4b524000000000000000000000000000008824412208000f5100000002c0324680b,
  0xe00006a480002c09647024,
  0x8804410001100882440220910000000000000da00003800002c03a4780d,
  0xe00007a900002c09648024,
  0xe0f527a93d4800000000000000000000000000000ae1570ab84000f5300000002c0324880b,
  0xf540180001ea80307aa00c1ea800000000000da00056f00002c03a4900d,
  0xe02bf15f8afc00000000000000000000000000000885442a21400087b00000002c0324980b,
  0x30018000006003001800c006000000000000da00015f80002c03a4a00d,
  0x2ca0d500005941aa7abbd585940000000000cae0007aa80002c03a4a80d,
  0x2ca16880005942d17abbd605940000000000cae0007aa80002c03a4b00d,
  0x2ca0d280005941a5444221c5940000000000cae0007ac80002c03a4b80d,
  0x30018000006003021e10f00600000000000cae00057c00002c03a4c00d,
  0xe00007ad00002c0964d024,
  0xe0f5a7ad3d6800000000000000000000000000000aea5752ba8000f5b00000002c0324d80b,
  0xf5c0180001eb80307ae00c1eb800000000000da00057380002c03a4e00d,
  0xe043921c90e400000000000000000000000000000d5a6ad356800065200000002c0324e80b,
  0x88e44680005941aa16506a859400000000000da00044780002c03a4f00d,
  0x2ca0d280005941a51650694594000000000114c00016900002c03a4f80d,
  0xe0d5b6adb56c00000000000000000000000000000893449a24c000f5d00000002c0325000b,
  0xe00006ad80002c09650824,
  0x8914498001122893448a24d12200000000000da00003800002c03a5100d,
  0xe00007af00002c09651824,
  0xe0f5e7af3d7800000000000000000000000000000af457a2bd0000f5f00000002c0325200b,
  0xf600180001ec00307b000c1ec000000000000da00057880002c03a5280d,
  0xe02c51628b140000000000000000000000000000089744ba25c000f6100000002c0325300b,
  0x2ca0d280005941a5165069459400000000000da00044c00002c03a5380d,
  0x2ca0d500005941aa16506a859400000000000da00044c00002c03a5400d,
  0x44c018000089803022600c089800000000000da00044c00002c03a5480d,
  0x15fe030018000006003021f90fc06000000000000da00021f00002c10a55041,
  0x30018000006003021f90fc06000000000000da00021f00002c03a5580d,
  0x30018000006003001800c006000000000000da00045580002c03a5600d,
  0x1ace030018000006003001800c006000000000000da00003800002c10a57041,
  0xe007003822a4000000000000000000000000000008a845422a00008a700000002c0325780b,
  0x9804c000013009804c026013000000000000980007b100003d344074d0,
  0x1ad409804c0000130098457a2bc130000000000009800022880003d348214d1,
  0x1ec609804c0000130098457a2bc130000000000009800022880003d34c074d2,
  0x12c0007b200003d35012cd3,
  0x9804c0000130098457a2bc130000000000161200058400003d354074d4,
  0x12c09604b025800000000000000000000000000000f657b2bd9400009e00000003d358064d5,
  0x12c0007b300003d35c12cd6,
  0x9804c0000130098459a2cc1300000000001ed00007b380003d360074d7,
  0x12c09604b025800000000000000000000000000000f697b4bda400009e00000003d364064d8,
  0x7b500003d368004d9,
  0x7b6bdb40000000000001ed80007b580003d36c004da,
  0xf6e7b73db800000000000003d370004db,
  0x13012c000000000013009804c35e0130f6f04c0260130000000000000009e00000003d37413cdc,
  0x9804c0000130098459a2cc1300000000001ed00007b380003d378074dd,
  0x9804c0000130098459a2cc130000000000009800045900003d37c074de,
  0x9804c0000130098459a2cc1300000000001ed00007b380003d380074df,
  0x162409804c000013009804c0260130000000000009800004b00003d384214e0,
  0x12c09604b116000000000000000000000000000000f707b83dc000045600000003d388064e1,
  0x3dcc00000000000000000000000000000f727b93dc8000f7100000003d38c004e2,
  0x1ee809804c0000130098457a2bc130000000000009800022880003d390214e3,
  0x13012c0000000001eeaf757bbbdd5eeaf767babdd5eea000000000000009e00000003d39413ce4,
  0x12c0006c080003d39812ce5,
  0x9804c0001ef2f797bcbde5ef20000000001ef000004b00003d39c074e6,
  0x12c09604b025800000000000000000000000000000f757babdd400009e00000003d3a0064e7,
  0x12c09604b35bc00000000000000000000000000000f7a7bd3de8000d6d00000003d3a4064e8,
  0x12c09604b35bc00000000000000000000000000000f7b7bdbdec000d6d00000003d3a8064e9,
  0x35d400000000000000000000000000000f7c7be3df0000d7300000003d3ac004ea,
  0x12c09604b3dfc00000000000000000000000000000f7e7bf3df8000f7d00000003d3b0064eb,
  0x9804c000013009804c026013000000000000980007c000003d3b4074ec,
  0x9804c000013009804c026013000000000000980007c080003d3b8074ed,
  0x7c100003d3bc004ee,
  0x12c09604b231c000000000000000000000000000008c646323180008c500000003d3c0874ef,
  0x7c2be140000000000001f080007c180003d3c5e94f0,
  0x8e6d8b6c5b62c000000000000000000000000000008cd466a334000f8600000023d3c8064f1,
  0x8e60006c580023d3cc12cf2,
  0x8cb46680011968cd465a33519600000000005d400023980023d3d0074f3,
  0x5e600059300013d3d412cf4,
  0x902d8f6c7b63c000000000000000000000000000008d446a2350000f8700000033d3d8064f5,
  0x9020006c780033d3dc12cf6,
  0x8d246a00011a48d446923511a400000000005f200024080033d3e0074f7,
  0x12c00046a80003cf4412bd0,
  0x2ccc000f880000000000000000000000000000000003d3e4004f8,
  0x46da36c00000000000011b400046c80003d3e8004f9,
  0x2cc800000000000000000000000000000b31598acc4000b3000000003d3ec004fa,
  0x46da36c00000000000011b400046c80003d3f0004fb,
  0x7c53e2800000000000000000007c480003d3f4004fc,
  0x167400000000000000007c53e2800000000000000000007c480003d3f8004fd,
  0x12c0006cd80003d3fc12cfe,
  0x9804c0001f18f8c7c63e31f180000000001f1600004b00003d400074ff,
  0x12c09604b0258000000000000000000000000000008de46f237800009e00000003d40406500,
  0x12c09604b116c00000000000000000000000000000f8d7c6be3400045900000003d40806501,
  0x12c09604b116c00000000000000000000000000000f8e7c73e3800045900000003d40c06502,
  0x1a8c00000000000000000000000000000f8f7c7be3c0006a100000003d41000503,
  0xaacf917c8be4400000000000000000000000000000da26d13688000f900000002bce09e9b81,
  0xda06d10001b40da26d03689b40000000000070a0006cf8002bce0dea382,
  0xda07c90001b40f926d03e49b40000000000070a0006cf8002bce11eab83,
  0xda06d08001b40da16d03685b40000000000070a0006cf8002bce15eb384,
  0x8e303d00011c607a7c9a3a91c6000000000009800017e80003d415ebd04,
  0x13120007ca00017ce19ec385,
  0x1312f947ca3e5000000000000000000000000000000b425a12d08000f9500000017ce1decb86,
  0xf964c58001f2c98b7cb262df2c0000000000e9000059f80017ce21ed387,
  0x17c0f987cc3e6000000000000000000000000000000daa6d536a8000f970000003fce25edb88,
  0xda86d50001b50daa6d436a9b50000000000131e0006d38003fce29ee389,
  0xda87cc8001b50f996d43e65b50000000000131e0006d38003fce2deeb8a,
  0xda86d48001b50da96d436a5b50000000000131e0006d38003fce31ef38b,
  0xf207400001e40e87ce3e6c1e400000000000980007cd00003c919efa45,
  0xf207700001e40ee7ce3e741e400000000000980007cd00003c91defa46]

def splitStates7 : List Nat := [
  0x4991858001f3cf9f7cf3e7df3c00000000006e400025100003d419f0505,
  0x12c6ba35d1ae8000000000000000000000000000008f247923c80006b800000003d41df0d06,
  0x12c6cd366b6d800000000000000000000000000000fa07d03e80000db400000003d421f1507,
  0xaacfa27d13e8800000000000000000000000000000db36d9b6cc000fa10000002bd425f2d08,
  0xdb16d98001b62db36d8b6cdb62000000000070a0006d80002bd429f3509,
  0xdb17d18001b62fa36d8be8db62000000000070a0006d80002bd42df3d0a,
  0xdb16d90001b62db26d8b6c9b62000000000070a0006d80002bd431f450b,
  0x12c0007d200003d435f4d0c,
  0x8f418580011e830b7d2a3f11e80000000000a7400048780003d439f550d,
  0x12c6ba35d1ae800000000000000000000000000000fa67d33e980006b800000003d43df5d0e,
  0x13120007d380017d441f650f,
  0x1312fa77d3be9c00000000000000000000000000000b515a8ad44000fa800000017d445f6d10,
  0xfa94c58001f5298b7d4a62df520000000000e900005a700017d449f7511,
  0x17c0fab7d5beac00000000000000000000000000000dbd6deb6f4000faa0000003fd44df7d12,
  0xdbb6de8001b76dbd6ddb6f5b76000000000131e0006dd0003fd451f8513,
  0xdbb7d60001b76fac6ddbeb1b76000000000131e0006dd0003fd455f8d14,
  0xdbb6de0001b76dbc6ddb6f1b76000000000131e0006dd0003fd459f9515,
  0x12c6ba35d1ae8000000000000000000000000000006bb35d9aec0008f100000003cefdf9bbe,
  0x49924e000093249c7d7beb893200000000000980007d680003cf01fa3bf,
  0x49925080009324a17d7bec093200000000000980007d680003cf05fabc0,
  0x12c09604b025800000000000000000000000000000dc46e2371000009e00000003d45dfbd16,
  0x12c09604b241000000000000000000000000000000903481a40c00090200000003d461fcd17,
  0x13012c00000000016b8b5c7d92d716b8fb15ae2d716b8000000000000009e00000003d465fd518,
  0x9804c000013009804c02601300000000001f6600004b00003d469fc519,
  0x1b8e09804c000013009804c0260130000000000009800004b00003d46dfdd1a,
  0xaac0005af8002bd471fe51b,
  0x9804c000013009804c0260130000000000009800048080003d475fed1c,
  0x12c00048a00003d478dc51d,
  0xf203d00001e407a7db3ed41e400000000000980007da00003d47c4ed1e,
  0xf203d00001e407a07901e81e4000000000009800048e80003d4801851f,
  0x1cd04c000039a0980e6826039a000000000009800048e80003d48418520,
  0x12c1cf0e7a4700000000000000000000000000000091b48da46c00091a00000003d48817d21,
  0xf207400001e40e807903a01e4000000000009800048e80003d48c18522,
  0xe032c1960cb000000000000000000000000000000929494a4a4000fb700000002cc380630d,
  0x1080838000210107084041c21000000000000da00049500002cc3c0730e,
  0x1080f700002101ee08407b821000000000000da00049500002cc400730f,
  0x32f018000065e03019780c065e00000000000da00049500002cc4407310,
  0xe000049580002c3a58a0e8,
  0xfb97dd0001f72fba7dcbee9f7200000000000da0007dc00002c1e58a878,
  0xfb97dd8001f72fbb7dcbeedf7200000000000da0007dc00002c20d8b082,
  0xe03311988cc400000000000000000000000000000fbc7de3ef000033000000002c2098b881,
  0xe0fbe7df3ef800000000000000000000000000000dd96ecb764000fbd00000002c2098c081,
  0xdd76ec8001baedd96ebb765bae00000000000da0006eb00002c20d8c882,
  0xdd77df8001baefbf6ebbefdbae00000000000da0006eb00002c1258d048,
  0xdd76ec0001baedd86ebb761bae00000000000da0006eb00002c1e58d878,
  0xfc17e10001f82fc27e0bf09f8200000000000da0007e000002c1e58e078,
  0xfc17e18001f82fc37e0bf0df8200000000000da0007e000002c20d8e882,
  0x1080838001f88fc57e23f15f8800000000000da0000f900002c1e58f078,
  0xe03311988cc40000000000000000000000000000093049824c000033000000002c20889881,
  0xe07003803f1c00000000000000000000000000000fc67e33f180006fd00000002c2098f881,
  0x7023848000e047093811c24e0400000000000da0007e400002c12590048,
  0x7022718000e044e3381138ce0400000000000da0007e400002c20d90882,
  0xe000049980002c3a5918e8,
  0xfca7e58001f94fcb7e53f2df9400000000000da0007e480002c1e593078,
  0xfca7e60001f94fcc7e53f31f9400000000000da0007e480002c20d93882,
  0xe093e49f3f3c00000000000000000000000000000fce7e73f38000fcd00000002c20994081,
  0xe0fd17e8bf4400000000000000000000000000000de86f437a0000fd000000002c20994881,
  0xde66f40001bccde86f337a1bcc00000000000da0006f280002c20d95082,
  0xde67e90001bccfd26f33f49bcc00000000000da0006f280002c12595848,
  0xde66f38001bccde76f3379dbcc00000000000da0006f280002c1e596078,
  0xfd47ea8001fa8fd57ea3f55fa800000000000da0007e980002c1e596878,
  0xfd47eb0001fa8fd67ea3f59fa800000000000da0007e980002c20d97082,
  0xe00007eb80002c3a5978e8,
  0x70226f0001fb0fd97ec3f65fb000000000000da00038500002c1e598078,
  0xe093e49f24f80000000000000000000000000000093a49d24e800094800000002c20998881,
  0xe0dee6f737b8000000000000000000000000000009434a1a50c000fda00000002c54d9d952,
  0xe00006f700002c5459e150,
  0x9414a180012829434a0a50d28200000000000da00003800002c3a19e8e7,
  0x6f980001a00292523,
  0x1fb8fdc7ee3f71fb80000000001fb600000000001a00292d24,
  0xdf46fa37d000000000000001a00293525,
  0x5d42ea000000000000000000007ee80001a00293d26,
  0x9d000000000000000005d42ea000000000000000000007ee80001a00294527,
  0xfde7ef3f7800000000000001a00294d28,
  0xa2cdf76fbb7dc0000000000000000000000000000094d4a6a534000fdf00000009a00295529,
  0xa2c0006fb80009a00295d2a,
  0x94b4a6800129694d4a5a53529600000000006b800028b00009a0029652b,
  0x12a20005d680005a00296d2c,
  0x1764dfb6fdb7ec0000000000000000000000000000095a4ad2568000fe00000000da0029752d,
  0x17640006fd8000da00297d2e,
  0x9584ad00012b095a4ac25692b000000000012ae0005d90000da0029852f,
  0x7e20810425740000000000000000000000000000095c4ae257000071f00000001a00298d30,
  0x20d08e800041a11d106847441a00000000000780004af00001a00299531,
  0x20d091000041a122106848841a00000000000780004af00001a00299d32,
  0x36300a80006c60151b180546c600000000000780004af00001a0029a533,
  0x7e20810425740000000000000000000000000000095c4ae257000020500000001a0029ad34,
  0x7f080001a0029b535,
  0x7f23f900000000000001fc60007f100001a0029bd36,
  0xfe57f2bf9400000000000001a0029c537,
  0xa2ce067033818000000000000000000000000000009644b22590000fe600000009a0029cd38,
  0xa2c00070300009a0029d539,
  0x9624b200012c49644b125912c400000000006b800028b00009a0029dd3a,
  0x12a20005e200005a0029e53b,
  0x1764e0a70538280000000000000000000000000000096e4b725b8000fe70000000da0029ed3c,
  0x17640007050000da0029f53d,
  0x96c4b700012d896e4b625b92d800000000012ae0005d90000da0029fd3e,
  0x7e0004b780001a002a053f,
  0x7f400001a002a0d40,
  0x381400000000000000000000000000000fe97f4bfa4000e0300000001a002a1541,
  0x70900003d49292523,
  0x1fd6feb7f5bfadfd60000000001fd400000000003d49692d24,
  0xe13709b84c00000000000003d49a93525,
  0x5eb2f5800000000000000000007f600003d49e93d26,
  0xa4a00000000000000005eb2f5800000000000000000007f600003d4a294527,
  0xfed7f6bfb400000000000003d4a694d28,
  0xaace1670b3858000000000000000000000000000009854c2a614000fee0000002bd50e95542,
  0xaac00070b0002bd51295d43,
  0x9834c280013069854c1a615306000000000070a0002ab0002bd51696544,
  0x13120005ed80017d51a96d45,
  0x17c0e1a70d3868000000000000000000000000000009924c92648000fef0000003fd51e97546,
  0x17c000070d0003fd52297d47,
  0x9904c900013209924c82649320000000000131e0005f00003fd52698548,
  0x12c2281142658000000000000000000000000000009954caa65400075400000003d52a98d49,
  0x22d09c000045a13811684e045a00000000000980004cb80003d52e9954a,
  0x22d09e800045a13d11684f445a00000000000980004cb80003d53299d4b,
  0x38c04c00007180981c6026071800000000000980004cb80003d5369a54c,
  0x12c2281142658000000000000000000000000000009954caa65400022500000003d53a9ad4d,
  0x7f800003d4da9b535,
  0x7f9bfcc0000000000001fe40007f880003d4de9bd36,
  0xff47fa3fd000000000000003d4e29c537,
  0xaace25712b8940000000000000000000000000000099d4cea674000ff50000002bd53e9cd4e,
  0xaac0007128002bd5429d54f,
  0x99b4ce800133699d4cda675336000000000070a0002ab0002bd5469dd50,
  0x13120005fa00017d54a9e551,
  0x17c0e29714b8a4000000000000000000000000000009a74d3a69c000ff60000003fd54e9ed52,
  0x17c00007148003fd5529f553,
  0x9a54d3800134a9a74d2a69d34a000000000131e0005f00003fd5569fd54,
  0x12c0004d400003d55aa0555,
  0x7fb80003d506a0d40,
  0x389000000000000000000000000000000ff87fc3fe0000e2200000003d50aa1541,
  0x12c0003bd00003cc518a313,
  0xffa7fd8001ff4ffb7fd3fedff4000000000070a0007fc80003cc558ab14,
  0xffa7fe0001ff4ffc7fd3ff1ff4000000000070a0007fc80003cc598b315,
  0x12c09604b025800000000000000000000000000000ffd7febff400009e00000003cc5d8bb16,
  0x1312fff7ffbffc00000000000000000000000000000e3671b38d8000ffe00000017cc618c317,
  0xe3471b0001c68e3671a38d9c680000000000e9000071980017cc658cb18,
  0xe348000001c6900071a4001c680000000000e9000071980017cc698d319,
  0xe3471a8001c68e3571a38d5c680000000000e9000071980017cc6d8db1a,
  0x10028018002005003801400e004000000000131e00080080017cc718e31b,
  0x100280200020050048014012004000000000131e00080080017cc758eb1c,
  0x9804c000200b005802c01600a000000000009800004b00003cc798f31d,
  0x12c7803c0401c00000000000000000000000000001006803401800077d00000003cc7d8fb1e,
  0x7823c48000f047893c11e24f04000000000009800080400003cc819031f,
  0x7822b98000f045733c115ccf04000000000009800080400003cc8590b20,
  0x12c0004e000003cc8d91b22,
  0x100a805800201500b805402e014000000000070a00080480003cc9993325,
  0x100a806000201500c8054032014000000000070a00080480003cc9d93b26,
  0x12c9cb4e5c03c0000000000000000000000000000100e807403800100d00000003cca194327,
  0x1313011808c04400000000000000000000000000000e44722391000101000000017cca594b28,
  0xe427220001c84e447213911c840000000000e9000072080017cca995329,
  0xe428090001c850127214049c840000000000e9000072080017ccad95b2a,
  0xe427218001c84e43721390dc840000000000e9000072080017ccb19632b,
  0x101480a800202901580a4056028000000000131e00080980017ccb596b2c,
  0x101480b000202901680a405a028000000000131e00080980017ccb99732d,
  0x12c00080b80003ccbd97b2e,
  0x7822b7000203101980c406603000000000000980003c500003ccc19832f,
  0x12c9cb4e5a72c000000000000000000000000000009c74e3a71c0009d500000003ccc598b30,
  0xaace4a7253928000000000000000000000000000009d04e8274000101a0000002bcced9db3a,
  0xaac0007250002bccf19e33b,
  0x9ce4e8000139c9d04e7274139c000000000070a0002ab0002bccf59eb3c,
  0xe000080d80002c19a44865,
  0xe101b80dc06c00000000000000000000000000000c2e61730b800101c00000002c18a45061,
  0x101d018000203a03080e80c203a00000000000da00061580002c0ee4583a,
  0x9d84eb80000be0b102f82c40be00000000000da0004ec80002c06e4601a,
  0xe0e51728b944000000000000000000000000000009dd4eea77400101e00000002c2da468b5,
  0xe000072880002c2d2470b3,
  0x9db4ee80013b69dd4eda7753b600000000000da00003800002c19647864,
  0xe000080f80002c19a48065,
  0xe101f80fc07c00000000000000000000000000000c3661b30d800102000000002c18a48861,
  0x1021018000204203081080c204200000000000da00061980002c0ee4903a,
  0xe03a21d10e88000000000000000000000000000009e04f027800009d600000002c0f24983b,
  0x5f02f00000be05e02f81780be00000000000da0004f080002c0e24a037,
  0x5f05880000be0b102f82c40be00000000000da0004f080002c06e4a01a,
  0x14c01800002980300a600c029800000000000da0004f080002c0ee4a03a,
  0x3aa12a0000754254812408c7540000000000cae00081100002c06e4a81a,
  0x3aa1d880007543b181240947540000000000cae00081100002c06a4b019,
  0x3aa127800075424f4f2278c7540000000000cae00081300002c0e24b837,
  0xe000081380002c19a4d065,
  0xe1027813c09c00000000000000000000000000000c3f61fb0fc00102800000002c18a4d861,
  0x1029018000205203081480c205200000000000da00061e00002c0ee4e03a,
  0xe05842c2161000000000000000000000000000000e63731b98c00079c00000002c2da4e8b5,
  0x9e74f300007542541d5095075400000000000da0004f400002c06e4f01a,
  0x3aa127800075424f1d5093c754000000000114c0001d900002c0e24f837,
  0xe0e647323990000000000000000000000000000009ec4f627b000102a00000002c2da500b5,
  0xe000073200002c2d2508b3,
  0x9ea4f600013d49ec4f527b13d400000000000da00003800002c19651064,
  0xe000081580002c19a51865,
  0xe102b815c0ac00000000000000000000000000000c49624b12400102c00000002c18a52061,
  0x102d018000205a03081680c205a00000000000da00062300002c0ee5283a,
  0xe03a81d40ea0000000000000000000000000000009f04f827c000102e00000002c0f25303b,
  0x3aa127800075424f1d5093c75400000000000da0004f880002c0e253837,
  0x3aa12a00007542541d5095075400000000000da0004f880002c06e5401a,
  0x5920180000b240302c900c0b2400000000000da0004f880002c0ee5483a,
  0x1950ca800032a1950ca865432a00000000002e200081780000d3440700d,
  0x1cdc1950ca800032a1954fc27e032a00000000002e20002ca80000d34821041,
  0x1950ca800032a1954fc27e032a00000000002e20002ca80000d34c0700d,
  0x4c200081800000d35012824,
  0x1950ca800032a1954fc27e032a00000000018a000062780000d3540700d,
  0x4c2261130898400000000000000000000000000001031818c0c400026d00000000d3580600b,
  0x4c200081900000d35c12824,
  0x1950ca800032a1954fda7ec32a000000000206800081980000d3600700d,
  0x4c226113089840000000000000000000000000000103581ac0d400026d00000000d3640600b,
  0x5c44c2000000000032a1950cab9e432b0360ca865432a000000000000026d00000000d37413826,
  0x1950ca800032a1954fda7ec32a000000000206800081980000d3780700d,
  0x1950ca800032a1954fda7ec32a00000000002e20004fd00000d37c0700d,
  0x1950ca800032a1954fda7ec32a000000000206800081980000d3800700d,
  0x18b01950ca800032a1950ca865432a00000000002e200013080000d38421041,
  0x4c226113096700000000000000000000000000000103781bc0dc00059a00000000d3880600b,
  0x20701950ca800032a1954fc27e032a00000000002e20002ca80000d39021041,
  0x5c44c2000000000207303981dc0e607303a81cc0e6072000000000000026d00000000d39413826,
  0x4c200074080000d39812824,
  0x1950ca800207b03d81ec0f607a000000000207800013080000d39c0700d,
  0x4c226113089840000000000000000000000000000103981cc0e400026d00000000d3a00600b,
  0x4c2261130b9cc0000000000000000000000000000103e81f40f8000e7100000000d3a40600b,
  0x4c2261130b9cc0000000000000000000000000000103f81fc0fc000e7100000000d3a80600b,
  0x4c2261130c10800000000000000000000000000001041820c10400104000000000d3b00600b,
  0x1950ca800032a1950ca865432a00000000002e200082180000d3b40700d,
  0x1950ca800032a1950ca865432a00000000002e200082200000d3b80700d,
  0x4c2261130a83c00000000000000000000000000000a0e5072838000a0d00000000d3c08700b,
  0x4c2e887443a2000000000000000000000000000000a1450a285000104500000000d3c80600b,
  0x4c200074400000d3cc12824,
  0xa1250a0001424a14509285142400000000002e200013080000d3d00700d,
  0x4c200063400000d3d412824,
  0x4c2e8c7463a3000000000000000000000000000000a1b50da86c00104600000000d3d80600b,
  0x4c200074600000d3dc12824,
  0xa1950d8001432a1b50ca86d43200000000002e200013080000d3e00700d,
  0x4c200050e00000cf4412824,
  0x4c200074900000d3fc12824,
  0x1950ca80020910488244122090000000000208e00013080000d4000700d,
  0x4c2261130898400000000000000000000000000000a20510288000026d00000000d4040600b,
  0x4c2261130967c00000000000000000000000000001049824c12400059d00000000d4080600b,
  0x4c2261130967c0000000000000000000000000000104a825412800059d00000000d40c0600b,
  0x4c304c826413000000000000000000000000000000e9874c3a6000104b00000000ce09e980b,
  0xe9674c0001d2ce9874b3a61d2c00000000002e200074a80000ce0dea00d,
  0xe968268001d2d04d74b4135d2c00000000002e200074a80000ce11ea80d,
  0xe9674b8001d2ce9774b3a5dd2c00000000002e200074a80000ce15eb00d,
  0xa25060000144a0c082728b144a00000000002e20001ea80000d415eb80d,
  0x4c200082780000ce19ec024,
  0x4c304f827c13c00000000000000000000000000000c7c63e31f000105000000000ce1dec80b,
  0x10510ca80020a219582886560a200000000002e200063c80000ce21ed00d,
  0x4c3053829c14c00000000000000000000000000000ea07503a8000105200000000ce25ed80b,
  0xe9e7500001d3cea074f3a81d3c00000000002e200074e80000ce29ee00d,
  0xe9e82a0001d3d05474f4151d3c00000000002e200074e80000ce2dee80d,
  0xe9e74f8001d3ce9f74f3a7dd3c00000000002e200074e80000ce31ef00d,
  0x1720b380002e416782bc1582e400000000002e200082a80000c919ef80d,
  0x1720b680002e416d82bc1602e400000000002e200082a80000c91def80d,
  0x5d51f180020b305a82cc16a0b20000000000fd80002ef00000d419f000d,
  0x4c27f23f91fc800000000000000000000000000000a3451a28d00007f000000000d41df080b,
  0x4c2807403bab40000000000000000000000000000105b82dc16c000eab00000000d421f100b,
  0x4c2261130b25c0000000000000000000000000000105c82e4170000c9500000000cf8df180b,
  0x4c305e82f417800000000000000000000000000000eaa7553aa800105d00000000d425f280b,
  0xea87550001d50eaa7543aa9d5000000000002e200075380000d429f300d,
  0xea882f8001d5105f754417dd5000000000002e200075380000d42df380d,
  0xea87548001d50ea97543aa5d5000000000002e200075380000d431f400d,
  0x4c200083000000d435f4824,
  0xa391f180014723e3830a905472000000000147000052c00000d439f500d,
  0x4c27f23f91fc80000000000000000000000000000106283141880007f000000000d43df580b,
  0x4c200083180000d441f6024,
  0x4c3063831c18c00000000000000000000000000000c8e647323800106400000000d445f680b,
  0x10650ca80020ca19583286560ca00000000002e200064580000d449f700d,
  0x4c3067833c19c00000000000000000000000000000eb475a3ad000106600000000d44df780b,
  0xeb275a0001d64eb47593ad1d6400000000002e200075880000d451f800d,
  0xeb28340001d6506875941a1d6400000000002e200075880000d455f880d,
  0xeb27598001d64eb37593acdd6400000000002e200075880000d459f900d,
  0x4c27f23f91fc8000000000000000000000000000007f33f99fcc000a3300000000cefdf980b,
  0x5d52ec0000baa5d8835c1a8baa00000000002e200083480000cf01fa00d,
  0x5d52ee8000baa5dd835c1b0baa00000000002e200083480000cf05fa80d,
  0x4c2261130a92000000000000000000000000000000a47523a91c000a4600000000cfd9fb00b,
  0x4c2261130898400000000000000000000000000000eba75d3ae800026d00000000cfddfb80b,
  0x1950ca800032a1950ca865432a000000000194800013080000cfe1fc00d,
  0x4c2261130898400000000000000000000000000000ebe75f3af800026d00000000d45dfb80b,
  0x4c2261130a93400000000000000000000000000000a4c5262930000a4b00000000d461fc80b,
  0x5c44c2000000000193ac9d837327593b06d64eb27593a000000000000026d00000000d465fd026,
  0x1950ca800032a1950ca865432a00000000020de00013080000d469fc00d,
  0x1d821950ca800032a1950ca865432a00000000002e200013080000d46dfd841,
  0x4c200065000000d471fe024,
  0x1950ca800032a1950ca865432a00000000002e200052500000d475fe80d,
  0x1950ca800032a19552f297832a00000000002e200052e80000cff9ff00d,
  0x20e01950ca800032a19552f297832a00000000002e200052e80000cffdff841,
  0x1950ca800032a19552f297832a00000000002e200052e80000d0020000d,
  0x5c44c2000000000032a1950cabb0832b0710ca865432a000000000000026d00000000d00600826,
  0x1950ca800032a19552f297832a000000000194800083900000d00a0100d,
  0x1950ca800032a19552f297832a000000000194800083900000d00e0180d,
  0x1950ca800032a19552f297832a000000000194800083900000d0120200d,
  0x4c200053000000d478dc024,
  0x1950ca800032a195201100832a000000000102200053c00000cc498900d,
  0x17206000002e40c083ac1d02e400000000002e200083980000d47c4e80d,
  0x17206000002e40c00b903002e400000000002e200053600000d4801800d,
  0x27d0ca80004fa19513e86544fa00000000002e200053600000d4841800d,
  0x4c227f13fa9ac00000000000000000000000000000a6a53529a8000a6900000000d4881780b,
  0x1720b380002e41670b9059c2e400000000002e200053600000d48c1800d,
  0x1950ca800032a19553829c032a00000000020ee00083b00000ccd99b00d,
  0x5c44c2000000000032a1950cabb4c32b0780ca865432a000000000000026d00000000ccdd9b826,
  0x1950ca800032a19553829c032a00000000020ee00083b00000cce19c00d,
  0x1950ca800032a19553829c032a00000000002e200053780000cce59c80d,
  0x1950ca800032a19553829c032a00000000020ee00083b00000cce99d00d,
  0x20f21950ca800032a1953fa9fd432a00000000002e20003fa00000ccf99f041,
  0x4c2a7c53e29ec00000000000000000000000000000a7a53d29e800107a00000000c9292500b,
  0x107c83d800032a1950ca865432a00000000002e200013080000c92d2580d,
  0x1950ca800032a1950ca865432a00000000002e200083e80000c9312600d,
  0x107c83d800032a1950ca865432a00000000002e200083e80000c9352680d,
  0x107f84000020ff08083fc2020fe00000000002e200083f00000c9392700d,
  0x108384100020ff08183fc2060fe00000000002e200083f00000c93d2780d,
  0x107f84080020ff08183fc2060fe00000000002e200083f00000c9412800d,
  0x1950ca800032a1950ca865432a00000000002e200083e80000c9452880d,
  0x4c2a7c53e29f0000000000000000000000000000010848424210000a7900000000c9492900b,
  0x1950ca800032a1950ca865432a00000000002e200053e00000c94d2980d,
  0x107c83d800032a195201100832a000000000102200053c00000c9512a00d,
  0x107c83d800032a195201100832a000000000102200053e80000c9552a80d,
  0x4c200066880000c9592b024,
  0xa844198001508833843c21950800000000002e200084280000c95d2b80d,
  0x4c2a825412a0400000000000000000000000000000a805402a0000108800000000c9692d00b,
  0x108a844800150883854220e150800000000002e200054600000c9712e00d,
  0xa84419800150883354220cd50800000000002e200084580000c9752e80d,
  0x108a844800150883854220e150800000000002e200084580000c9792f00d,
  0x108d847000211b08e846c23a11a00000000002e200084600000c97d2f80d,
  0x1091848000211b08f846c23e11a00000000002e200084600000c9813000d,
  0xcdf0ca80019be19566f86559be00000000002e200084580000c9853080d,
  0x108d847800211b08f846c23e11a00000000002e200084600000c9893100d,
  0x4c2a825412a0400000000000000000000000000000a805402a00000a7f00000000c98d3180b,
  0xa845458001508a8b5422a2d50800000000002e200084580000c9913200d,
  0xa8441c000150883854220e150800000000002e200084580000c9953280d,
  0x4c2a825412a0800000000000000000000000000001093849c24c00109200000000c9993300b,
  0xa845458001508a8b5422a2d50800000000002e200084a00000c99d3380d,
  0xa8441c000150883854220e150800000000002e200084a00000c9a13400d,
  0x4c2cd1668b34400000000000000000000000000000ef477a3bd0000ee200000000c9c93900b,
  0xa8441c00015088385432a15508000000000102200054180000c9cd3980d,
  0xa8441980015088335432a3950800000000002e200054680000c9d13a00d,
  0x4c200084a80000c9d53a824,
  0x4c309584ac25400000000000000000000000000000cdb66db36c00109600000000c9d93b00b,
  0x10970ca800212e19584b865612e00000000002e200066c00000c9dd3b80d,
  0x4c2cd1668b34400000000000000000000000000000efc77e3bf0000ee200000000c9e13c00b,
  0x4c2a825412a0400000000000000000000000000000a805402a00000a7f00000000c9e53c80b,
  0x108a84480015088385432a15508000000000102200054180000c9ed3d80d,
  0x108a84480015088385432a15508000000000102200054480000c9f13e00d,
  0xa8441980015088335432a39508000000000194800054680000c9f53e80d,
  0x1950ca800032a19515a0ad032a000000000107c00043180000c0398900d,
  0x4c200054a00000c3a58a024,
  0x109984d000213309a84cc26a13200000000002e200084c00000c1e58a80d,
  0x109984d800213309b84cc26e13200000000002e200084c00000c20d8b00d,
  0x4c227f13f89fc0000000000000000000000000000109c84e427000027e00000000c2098b80b,
  0x4c309e84f427800000000000000000000000000000f05782bc1400109d00000000c2098c00b,
  0xf037828001e06f05781bc15e0600000000002e200078100000c20d8c80d,
  0xf0384f8001e0709f781c27de0600000000002e200078100000c1258d00d,
  0xf037820001e06f04781bc11e0600000000002e200078100000c1e58d80d,
  0x10a185100021430a2850c28a14200000000002e200085000000c1e58e00d,
  0x10a185180021430a3850c28e14200000000002e200085000000c20d8e80d,
  0x17206000021490a5852429614800000000002e20000b800000c1e58f00d,
  0x4c227f13f89fc00000000000000000000000000000a9954caa6400027e00000000c2088980b,
  0x4c2852429429c000000000000000000000000000010a6853429800084f00000000c2098f80b,
  0x85742f00010ae85e42ba1790ae00000000002e200085400000c1259000d,
  0x85731680010ae62d42b98b50ae00000000002e200085400000c20d9080d,
  0x1950ca800032a1950ca865432a00000000002e200085480000c0399100d,
  0x4c200054e00000c3a591824,
  0x1e1a1950ca800032a1955532a9832a00000000002e200055280000c10992041,
  0x1950ca800032a1955532a9832a00000000002e200055280000c0399280d,
  0x10ab85600021570ac855c2b215600000000002e200085500000c1e59300d,
  0x10ab85680021570ad855c2b615600000000002e200085500000c20d9380d,
  0x4c2aad556c2c0000000000000000000000000000010af857c2bc0010ae00000000c2099400b,
  0x4c30b285942c800000000000000000000000000000f1778bbc5c0010b100000000c2099480b,
  0xf1578b8001e2af1778abc5de2a00000000002e200078a00000c20d9500d,
  0xf158598001e2b0b378ac2cde2a00000000002e200078a00000c1259580d,
  0xf1578b0001e2af1678abc59e2a00000000002e200078a00000c1e59600d,
  0x10b585b000216b0b685ac2da16a00000000002e200085a00000c1e59680d,
  0x10b585b800216b0b785ac2de16a00000000002e200085a00000c20d9700d,
  0x4c200085c00000c3a597824,
  0x85731400021730ba85cc2ea17200000000002e200042f80000c1e59800d,
  0x4c2aad556aab400000000000000000000000000000aa45522a90000ab700000000c2099880b,
  0x1950ca800032a1955532a9832a00000000019f000085d80000c0399900d,
  0x4c200085e00000c09599824,
  0x1950ca800032a1955532a9832a00000000019f000085d80000c0399a00d,
  0x4c22611308984000000000000000000000000000010bd85ec2f400026d00000000c0319a80b,
  0x1950ca800032a195554aaa432a000000000217e00085f00000c0399b00d,
  0x5c44c2000000000032a1950cabc9032b0c00ca865432a000000000000026d00000000c09d9b826,
  0x1950ca800032a195554aaa432a000000000217e00085f00000c0399c00d,
  0x1950ca800032a195554aaa432a00000000002e200055400000c0399c80d,
  0x1950ca800032a195554aaa432a000000000217e00085f00000c0399d00d,
  0x4c2f267933c9800000000000000000000000000000ab25592ac80010c100000000c54d9d80b,
  0x4c200079300000c5459e024,
  0xab05590001560ab25582ac956000000000002e200013080000c3a19e80d,
  0x21841950ca800032a1955532a9832a00000000002e200055280000c1099f041,
  0x5c44c200000000021870c3862c30e1870c4861c30e186000000000000026d00000000c09d9f826,
  0x4c200079680000c095a0024,
  0x1950ca800218f0c7863c31e18e000000000218c00013080000c039a080d,
  0x4c22611308984000000000000000000000000000010c3861c30c00026d00000000c031a100b,
  0x4c2261130bc80000000000000000000000000000010c88644320000f1e00000000c031a180b,
  0x4c2261130bc80000000000000000000000000000010c9864c324000f1e00000000c031a200b,
  0x4c200043380000c0958a024,
  0x10cb86600021970cc865c33219600000000002e200086500000c0398a80d,
  0x10cb86680021970cd865c33619600000000002e200086500000c0398b00d,
  0x4c22611308984000000000000000000000000000010ce867433800026d00000000c0318b80b,
  0x4c30d0868434000000000000000000000000000000f3779bbcdc0010cf00000000c0318c00b,
  0xf3579b8001e6af3779abcdde6a00000000002e200079a00000c0398c80d,
  0xf358688001e6b0d179ac345e6a00000000002e200079a00000c0398d00d,
  0xf3579b0001e6af3679abcd9e6a00000000002e200079a00000c0398d80d,
  0x10d386a00021a70d4869c3521a600000000002e200086900000c0398e00d,
  0x10d386a80021a70d5869c3561a600000000002e200086900000c0398e80d,
  0x1950ca80021ad0d686b435a1ac00000000002e200013080000c0398f00d,
  0x4c286d436c360000000000000000000000000000010d786bc35c00086a00000000c0318f80b,
  0x86f43b00010de876437a1d90de00000000002e200086c80000c0399000d,
  0x86f32080010de64143799050de00000000002e200086c80000c0399080d,
  0x4c200056000000c09591824,
  0x10db86e00021b70dc86dc3721b600000000002e200086d00000c0399300d,
  0x10db86e80021b70dd86dc3761b600000000002e200086d00000c0399380d,
  0x4c2acb565c380000000000000000000000000000010df86fc37c0010de00000000c0319400b,
  0x4c30e2871438800000000000000000000000000000f457a2bd140010e100000000c0319480b,
  0xf437a28001e86f457a1bd15e8600000000002e20007a100000c0399500d,
  0xf438718001e870e37a1c38de8600000000002e20007a100000c0399580d,
  0xf437a20001e86f447a1bd11e8600000000002e20007a100000c0399600d,
  0x10e587300021cb0e6872c39a1ca00000000002e200087200000c0399680d,
  0x10e587380021cb0e7872c39e1ca00000000002e200087200000c0399700d,
  0x4c200087400000c09597824,
  0x86f31e00021d30ea874c3aa1d200000000002e200043b80000c0399800d,
  0x4c2acb565ab2c00000000000000000000000000000ac7563ab1c000ad500000000c0319880b,
  0x4c2f4b7a5bd2c00000000000000000000000000000ad05682b400010eb00000000c0319d80b,
  0x4c20007a580000c0959e024,
  0xace568000159cad05672b4159c00000000002e200013080000c0399e80d,
  0xe0f4e7a73d3800000000000000000000000000000ad956cab640010ec00000002c0329500b,
  0xe00007a700002c09695824,
  0xad756c80015aead956bab655ae00000000000da00003800002c03a9600d,
  0xe00006a480002c09696824,
  0xe0f527a93d4800000000000000000000000000000ae1570ab840010ed00000002c0329700b,
  0xe00007a900002c09697824,
  0xadf57080015beae156fab855be00000000000da00003800002c03a9800d,
  0xe02c5162ab9000000000000000000000000000000ae3571ab8c00088a00000002c0329880b,
  0x2ca0d280005941a5165069459400000000000da00057280002c03a9900d,
  0x2ca0d500005941aa16506a859400000000000da00057280002c03a9980d,
  0x44c018000089803022600c089800000000000da00057280002c03a9a00d,
  0xe02c5162ab9000000000000000000000000000000ae3571ab8c0002c200000002c0329a80b,
  0xe0f5a7ad3d6800000000000000000000000000000aea5752ba80010ee00000002c0329c80b,
  0xe00007ad00002c0969d024,
  0xae857500015d0aea5742ba95d000000000000da00003800002c03a9d80d,
  0xe00006ad80002c0969e024,
  0xe0f5e7af3d7800000000000000000000000000000af457a2bd00010ef00000002c0329e80b,
  0xe00007af00002c0969f024,
  0xaf257a00015e4af45792bd15e400000000000da00003800002c03a9f80d,
  0xe000057a80002c096a0024,
  0x12c09604b35bc000000000000000000000000000010f087843c0000d6d00000003d55c06556,
  0x58600003d56000557,
  0x12c09604b025800000000000000000000000000000f657b2bd9400009e00000003d56406558,
  0x9804c000013009804c02601300000000001afc00004b00003d56807559,
  0x12c09604b025800000000000000000000000000000f697b4bda400009e00000003d56c0655a,
  0x12c09604b2c3c00000000000000000000000000000b0e5872c38000b0d00000003d5700655b,
  0x13012c0000000001af0d7887935e1af10f16bc35e1af0000000000000009e00000003d57413d5c,
  0x9804c000013009804c026013000000000021e600004b00003d5780755d,
  0xf6e7b73db800000000000003d57c0055e,
  0x43d8000000000000000000000000000010f587ac3d40010f400000003d5800055f,
  0x21ef0f787c43de1ef0f887bc3de1ee000000000000000000000003d58400560,
  0x87c80003d58800561,
  0x21f400000000003d58c00562,
  0x1ee809804c000013009804c0260130000000000009800004b00003d59021563,
  0x9804c00001300980da86d41300000000000d0a00034200003d59407564,
  0x87d80003d59800565,
  0x87f43f800000000000021fa00087e00003d59c00566,
  0x10ff87fc3fc00000000000003d5a000567,
  0x9804c000013009804c0260130000000000009800058580003d5a407568,
  0x9804c000013009858c2c60130000000000009800058b80003d5a807569,
  0x220009804c000013009858c2c60130000000000009800058b80003d5ac2156a,
  0x220209804c000013009858c2c60130000000000009800058b80003d5b00756b,
  0x13012c000000000013009804c3dd413110204c0260130000000000000009e00000003d5b413d6c,
  0x9804c000013009858c2c601300000000001afc00088180003d5b80756d,
  0x9804c000013009858c2c601300000000001afc00088180003d5bc0756e,
  0x9804c000013009858c2c601300000000001afc00088180003d5c00756f,
  0x882c41400000000000021f400088200003d5c400570,
  0x12c0007bf80003d5c812d71,
  0x9804c000220f107883c41e20e000000000220c00004b00003d5cc07572,
  0x12c09604b025800000000000000000000000000000b1b58dac6c00009e00000003d5d006573,
  0x12c09604b116000000000000000000000000000001108884442000045600000003d5d406574,
  0x12c09604b116000000000000000000000000000001109884c42400045600000003d5d806575,
  0x3dcc0000000000000000000000000000110a8854428000f7100000003d5dc00576,
  0x44340000000000000000000000000000110c886443000110b00000003d5e243577,
  0x221d10e887c43a21d10f887443a21c000000000000000000000003d5e643d78,
  0x88800003d5ea44579,
  0x8e60006c580023d5ec12d7a,
  0x9020006c780033d5f012d7b,
  0x163c00000000000000000000000000000000000000000000000003d5f40057c,
  0x444c00000000000000000000000000001112889444800111100000003d5f80057d,
  0x88a00003d5fc0057e,
  0x13012c000000000013009804c237813111504c0260130000000000000009e00000003d60013d7f,
  0x9804c000013009859c2ce01300000000000d4e00088b00003d60407580,
  0x9804c000013009859c2ce01300000000000d4e00088b00003d60807581,
  0x9804c000013009859c2ce01300000000000d4e00088b00003d60c07582,
  0x7c53e28000000000000166c00088b80003d61000583,
  0xaac00088c0002bd11244c43,
  0xaad11888c446000000000000000000000000000000da26d136880011190000002bd11645444,
  0x111a2ac000223455888d1562234000000000070a0006cf8002bd11a45c45,
  0xb3d59e00001e40e807903a01e4000000000009800059f00003d61646584,
  0x1312f947ca3e5000000000000000000000000000000b425a12d0800111b00000017d11e46c46,
  0x13120007ca00017d12247447,
  0xb405a10001680b425a02d096800000000000e900004c480017d12647c48,
  0x17c000088e0003fd12a48449,
  0x17c111c88e447000000000000000000000000000000daa6d536a800111d0000003fd12e48c4a,
  0x111e5f1000223cbe288f2f8a23c000000000131e0006d38003fd1324944b,
  0x12c489244922400000000000000000000000000000b455a2ad14000b3b00000003cc3a49b0d,
  0xf203d00001e407a07901e81e400000000000980005a300003cc3e4a30e,
  0xf207400001e40e807903a01e400000000000980005a300003cc424a30f,
  0x1cd04c000039a0980e6826039a00000000000980005a300003cc464a310,
  0x49924e000093249c890c4809320000000000a7400088f80003d61a4ad85,
  0x49925080009324a1890c4889320000000000a7400088f80003d61e4b586,
  0x499185800093230b5a4ad209320000000000a7400089180003d6224bd87]

def splitStates8 : List Nat := [
  0xaac0008920002bd6264d588,
  0xaad124892449000000000000000000000000000000db36d9b6cc0011250000002bd62a4dd89,
  0x11262ac000224c558893156224c000000000070a0006d80002bd62e4e58a,
  0x12c6ba35d1ae800000000000000000000000000000fa67d33e980008f100000003d6324ed8b,
  0xb4c5a5800093249c24c927093200000000000980005a680003d6364f58c,
  0x499185800093230b24c8c2c9320000000000ee000025100003d63a4fd8d,
  0x1312fa77d3be9c00000000000000000000000000000b515a8ad4400112700000017d63e5058e,
  0x13120007d380017d64250d8f,
  0xb4f5a8800169eb515a7ad4569e0000000000e900004c480017d64651590,
  0x17c00008940003fd64a51d91,
  0x17c112889444a000000000000000000000000000000dbd6deb6f40011290000003fd64e52592,
  0x112a5f10002254be28952f8a254000000000131e0006dd0003fd65252d93,
  0x12c49524a925400000000000000000000000000000b555aaad5400112b00000003d1ca53471,
  0x499185800093230b24c8c2c93200000000000980005ab00003d1ce53c72,
  0x49924e000093249c24c927093200000000000980005ab00003d1d254473,
  0x6cb04c0000d960983658260d9600000000000980005ab00003d1d654c74,
  0x1b8e09804c000013009835f1af8130000000000009800035e80003d65655594,
  0x225809804c000013009835f1af8130000000000009800035e80003d65a55d95,
  0x13012c000000000225b12d897c4b625b12e896c4b625a000000000000009e00000003d65d9fd96,
  0x12c1cf0e7c4c40000000000000000000000000000113089844c000091a00000003d66017d97,
  0xf207700001e40ee07903b81e4000000000009800089900003d66418598,
  0xf207400001e40e807903a01e4000000000009800089900003d66818599,
  0xe00005bb80002cf4412bd0,
  0xe113489a44d000000000000000000000000000000fbb7ddbeec00113300000002c209e9881,
  0xfb97dd8001f72fbb7dcbeedf7200000000000da0007dc00002c20dea082,
  0xfb989a8001f731357dcc4d5f7200000000000da0007dc00002c125ea848,
  0xfb97dd0001f72fba7dcbee9f7200000000000da0007dc00002c1e5eb078,
  0xb7b08380016f610789b2e096f600000000000da00026700002c1e5eb878,
  0xe000089b80002c3a5ec0e8,
  0xe113789bc4dc00000000000000000000000000000dd96ecb76400113800000002c3a9ec8e9,
  0x1139018000227203089c80c227200000000000da0006eb00002c1fded07e,
  0xe113b89dc4ec00000000000000000000000000000fc37e1bf0c00113a00000002c209ed881,
  0xfc17e18001f82fc37e0bf0df8200000000000da0007e000002c20dee082,
  0xfc189e0001f8313c7e0c4f1f8200000000000da0007e000002c125ee848,
  0xfc17e10001f82fc27e0bf09f8200000000000da0007e000002c1e5ef078,
  0x1080f700002101ee89fc4f821000000000000da00089e80002c20def882,
  0x1080f880002101f189fc50021000000000000da00089e80002c125ef848,
  0x70226f00022831428a0c50a282000000000086600038500002c1e5f0078,
  0xe093949ca4e400000000000000000000000000000b8c5c62e3000093700000002c3a9f08e9,
  0xe093e49f3f3c000000000000000000000000000011438a1c50c000fcd00000002c209f1081,
  0xe11458a2c51400000000000000000000000000000fcc7e63f3000114400000002c209f2881,
  0xfca7e60001f94fcc7e53f31f9400000000000da0007e480002c20df3082,
  0xfca8a30001f951467e54519f9400000000000da0007e480002c125f3848,
  0xfca7e58001f94fcb7e53f2df9400000000000da0007e480002c1e5f4078,
  0xe00008a380002c3a5f48e8,
  0xb8e26f000171c4de8a42e5971c0000000000cae0005d100002c1e5f5078,
  0xe093949ca4e4000000000000000000000000000011498a4c52400093700000002c3a9f58e9,
  0xe00008a500002c3a5f60e8,
  0xe114a8a5452800000000000000000000000000000de86f437a000114b00000002c3a9f68e9,
  0x114c01800022980308a600c229800000000000da0006f280002c1fdf707e,
  0xe114e8a7453800000000000000000000000000000fd67eb3f5800114d00000002c209f7881,
  0xfd47eb0001fa8fd67ea3f59fa800000000000da0007e980002c20df8082,
  0xfd48a78001fa914f7ea453dfa800000000000da0007e980002c125f8848,
  0xfd47ea8001fa8fd57ea3f55fa800000000000da0007e980002c1e5f9078,
  0xe093949ca4e40000000000000000000000000000093a49d24e8000b8b00000002c54df9952,
  0x7022718000e044e38a94544e0400000000000da0008a800002c20dfa082,
  0x7023848000e047098a9454ce0400000000000da0008a800002c125fa848,
  0xe00006f700002c7a1fe1e7,
  0x37d00011540000000000000000000000000000000001a002cdd9a,
  0x5d42ea0000000000000174e0005d300001a002ce59b,
  0x37cc00000000000000000000000000000df26f937c8000df100000001a002ced9c,
  0x5d42ea0000000000000174e0005d300001a002cf59d,
  0xa2c0006fb80009a002cfd9e,
  0x17640006fd8000da002d059f,
  0xfe57f2bf9400000000000001a002d0da0,
  0x455c000000000000000000000000000011568ab455800115500000001a002d15a1,
  0x22b11588acc5622b11598ac45622b0000000000000000000000001a002d1da2,
  0x8ad00001a002d25a3,
  0x22b600000000001a002d2da4,
  0xa2c00070300009a002d35a5,
  0x17640007050000da002d3da6,
  0x38140000000000000000000000000000115c8ae4570000e0300000001a002d45a7,
  0x8af457800000000000022b60008ae80001a002d4da8,
  0x384c00115f0000000000000000000000000000000003d66ecdd9a,
  0x5eb2f5800000000000017aa0005ea00003d672ce59b,
  0x384800000000000000000000000000000e11708b844000e1000000003d676ced9c,
  0x5eb2f5800000000000017aa0005ea00003d67acf59d,
  0xaac00070b0002bd6aacfda9,
  0x17c000070d0003fd6aed05aa,
  0xff47fa3fd000000000000003d686d0da0,
  0x4588000000000000000000000000000011618b0c58400116000000003d68ad15a1,
  0x22c71638b2458e2c71648b1c58e2c6000000000000000000000003d68ed1da2,
  0x8b280003d692d25a3,
  0x22cc00000000003d696d2da4,
  0xaac0007128002bd6b2d35ab,
  0x17c00007148003fd6b6d3dac,
  0x3890000000000000000000000000000011678b3c59c000e2200000003d6a2d45a7,
  0x8b4c5a400000000000022cc0008b400003d6a6d4da8,
  0xaad16b8b5c5ac00000000000000000000000000000ffc7fe3ff000116a0000002bcf4de9bd2,
  0xffa7fe0001ff4ffc7fd3ff1ff4000000000070a0007fc8002bcf51ea3d3,
  0xffa8b60001ff516c7fd45b1ff4000000000070a0007fc8002bcf55eabd4,
  0xffa7fd8001ff4ffb7fd3fedff4000000000070a0007fc8002bcf59eb3d5,
  0xc0504c000180a0988b6b02d80a00000000000980002b300003cf5debbd6,
  0x13120008b700017cf61ec3d7,
  0x131316e8b745b800000000000000000000000000000e3671b38d800116f00000017cf65ecbd8,
  0x11704c580022e098b8b8262e2e00000000000e9000071980017cf69ed3d9,
  0x17c11728b945c80000000000000000000000000000100480240100011710000003fcf6dedbda,
  0x100280200020050048014012004000000000131e0008008003fcf71ee3db,
  0x10028b9800200517380145ce004000000000131e0008008003fcf75eebdc,
  0x10028018002005003801400e004000000000131e0008008003fcf79ef3dd,
  0x9804c00001300988bac5d413000000000000980008ba00003cf7defbde,
  0x7822b700022ed1778bb45de2ec00000000006e40003c500003cf81f03df,
  0x12c9c64e3271800000000000000000000000000000c11608b0440009c400000003cf85f0be0,
  0x12c9cb4e5c03c000000000000000000000000000011788bc45e000100d00000003cf89f13e1,
  0xaad17a8bd45e80000000000000000000000000000100c80640300011790000002bcf95f2be4,
  0x100a806000201500c8054032014000000000070a0008048002bcf99f33e5,
  0x100a8bd800201517b80545ee014000000000070a0008048002bcf9df3be6,
  0x100a805800201500b805402e014000000000070a0008048002bcfa1f43e7,
  0x12c0008be00003cfa5f4be8,
  0xc132b7000182656e8beb06d8260000000000a7400061380003cfa9f53e9,
  0x12c9c64e327180000000000000000000000000000117e8bf45f80009c400000003cfadf5bea,
  0x13120008bf80017cfb1f63eb,
  0x131317f8bfc5fc00000000000000000000000000000e44722391000118000000017cfb5f6bec,
  0x11814c5800230298b8c0a62e3020000000000e9000072080017cfb9f73ed,
  0x17c11838c1c60c0000000000000000000000000000101680b40580011820000003fcfbdf7bee,
  0x101480b000202901680a405a028000000000131e0008098003fcfc1f83ef,
  0x10148c2000202918480a4612028000000000131e0008098003fcfc5f8bf0,
  0x101480a800202901580a4056028000000000131e0008098003fcfc9f93f1,
  0x12c9c64e32718000000000000000000000000000009c74e3a71c000c1000000003cfcdf9bf2,
  0x7822b98000f045738c3c618f0400000000000980008c280003cfd1fa3f3,
  0x7823c48000f047898c3c620f0400000000000980008c280003cfd5fabf4,
  0xaac0007250002bcff1fe3fb,
  0xe101b80dc06c00000000000000000000000000000c2e61730b800118900000002c2da950b5,
  0xe000080d80002c2d2958b3,
  0xc2c6170001858c2e61630b985800000000000da00003800002c19696064,
  0xe000072880002c4aa96929,
  0xe101f80fc07c00000000000000000000000000000c3661b30d800118a00000002c2da970b5,
  0xe000080f80002c2d2978b3,
  0xc3461b0001868c3661a30d986800000000000da00003800002c19698064,
  0xe03a81d430e800000000000000000000000000000c3961cb0e40009e500000002c0f29883b,
  0x3aa127800075424f1d5093c75400000000000da00061d80002c0e299037,
  0x3aa12a00007542541d5095075400000000000da00061d80002c06e9981a,
  0x5920180000b240302c900c0b2400000000000da00061d80002c0ee9a03a,
  0xe03a81d430e800000000000000000000000000000c3961cb0e40003a500000002c0f29a83b,
  0xe1027813c09c00000000000000000000000000000c3f61fb0fc00118b00000002c2da9c8b5,
  0xe000081380002c2d29d0b3,
  0xc3d61f800187ac3f61eb0fd87a00000000000da00003800002c1969d864,
  0xe000073200002c4aa9e129,
  0xe102b815c0ac00000000000000000000000000000c49624b12400118c00000002c2da9e8b5,
  0xe000081580002c2d29f0b3,
  0xc47624800188ec49623b12588e00000000000da00003800002c1969f864,
  0xe000062500002c19aa0065,
  0x4c2261130b9cc0000000000000000000000000000118d8c6c634000e7100000000d55c0600b,
  0x4c2261130898400000000000000000000000000001031818c0c400026d00000000d5640600b,
  0x1950ca800032a1950ca865432a0000000001cfc00013080000d5680700d,
  0x4c226113089840000000000000000000000000000103581ac0d400026d00000000d56c0600b,
  0x4c2261130b15400000000000000000000000000000c5462a3150000c5300000000d5700600b,
  0x5c44c20000000001cf2e798c7b9e5cf318e73cb9e5cf2000000000000026d00000000d57413826,
  0x1950ca800032a1950ca865432a000000000232000013080000d5780700d,
  0x20701950ca800032a1950ca865432a00000000002e200013080000d59021041,
  0x1950ca800032a195132099032a0000000000f7e0003df00000d5940700d,
  0x1950ca800032a1950ca865432a00000000002e200062900000d5a40700d,
  0x1950ca800032a19562eb17432a00000000002e200062e00000d5a80700d,
  0x23221950ca800032a19562eb17432a00000000002e200062e00000d5ac21041,
  0x1950ca800032a19562eb17432a00000000002e200062e00000d5b00700d,
  0x5c44c2000000000032a1950cac0e432b1920ca865432a000000000000026d00000000d5b413826,
  0x1950ca800032a19562eb17432a0000000001cfc0008c980000d5b80700d,
  0x1950ca800032a19562eb17432a0000000001cfc0008c980000d5bc0700d,
  0x1950ca800032a19562eb17432a0000000001cfc0008c980000d5c00700d,
  0x4c200082100000d5c812824,
  0x1950ca800232b1958cac65632a000000000232800013080000d5cc0700d,
  0x4c2261130898400000000000000000000000000000c5f62fb17c00026d00000000d5d00600b,
  0x4c22611309670000000000000000000000000000011968cb465800059a00000000d5d40600b,
  0x4c22611309670000000000000000000000000000011978cbc65c00059a00000000d5d80600b,
  0x4c200074400000d5ec12824,
  0x4c200074600000d5f012824,
  0x5c44c2000000000032a1950caa88032b1980ca865432a000000000000026d00000000d60013826,
  0x1950ca800032a195639b1cc32a0000000000fbc0008cc80000d6040700d,
  0x1950ca800032a195639b1cc32a0000000000fbc0008cc80000d6080700d,
  0x1950ca800032a195639b1cc32a0000000000fbc0008cc80000d60c0700d,
  0x4c20008cd00000d11244824,
  0x4c319a8cd466800000000000000000000000000000e9874c3a6000119b00000000d1164500b,
  0x119c0ca80023381958ce065633800000000002e200074a80000d11a4580d,
  0xc7763b00002e41670b9059c2e400000000002e200063c00000d6164600d,
  0x4c304f827c13c00000000000000000000000000000c7c63e31f000119d00000000d11e4680b,
  0x4c200082780000d12247024,
  0xc7a63e00018f4c7c63d31f18f400000000002e200013080000d1264780d,
  0x4c20008cf00000d12a48024,
  0x4c319e8cf467800000000000000000000000000000ea07503a8000119f00000000d12e4880b,
  0x11a00ca80023401958d0065634000000000002e200074e80000d1324900d,
  0x4c25c42e2171000000000000000000000000000000c7f63fb1fc000c7500000000cc3a4980b,
  0x17206000002e40c00b903002e400000000002e200064000000cc3e4a00d,
  0x1720b380002e41670b9059c2e400000000002e200064000000cc424a00d,
  0x27d0ca80004fa19513e86544fa00000000002e200064000000cc464a00d,
  0x5d52ec0000baa5d88d1c688baa00000000014700008d080000d61a4a80d,
  0x5d52ee8000baa5dd8d1c690baa00000000014700008d080000d61e4b00d,
  0x5d51f18000baa3e3641b208baa00000000014700008d280000d6224b80d,
  0x1950ca800032a1953fa9fd432a000000000147000075c00000d2624c00d,
  0x4c20008d300000d6264d024,
  0x4c31a68d3469800000000000000000000000000000eaa7553aa80011a700000000d62a4d80b,
  0x11a80ca80023501958d4065635000000000002e200075380000d62e4e00d,
  0x4c27f23f91fc8000000000000000000000000000010628314188000a3300000000d6324e80b,
  0xc896440000baa5d82ea9760baa00000000002e200064500000d6364f00d,
  0x5d51f18000baa3e32ea8f8cbaa00000000019480002ef00000d63a4f80d,
  0x4c3063831c18c00000000000000000000000000000c8e64732380011a900000000d63e5000b,
  0x4c200083180000d64250824,
  0xc8c6470001918c8e646323991800000000002e200013080000d6465100d,
  0x4c20008d500000d64a51824,
  0x4c31aa8d546a800000000000000000000000000000eb475a3ad00011ab00000000d64e5200b,
  0x11ac0ca80023581958d6065635800000000002e200075880000d6525280d,
  0x4c25d02e8174000000000000000000000000000000c9264932480011ad00000000d1ca5300b,
  0x5d51f18000baa3e32ea8f8cbaa00000000002e200064980000d1ce5380d,
  0x5d52ec0000baa5d82ea9760baa00000000002e200064980000d1d25400d,
  0x8050ca800100a195402865500a00000000002e200064980000d1d65480d,
  0x1d821950ca800032a1953fc1fe032a00000000002e20003fb80000d65655041,
  0x1950ca800032a1953fc1fe032a00000000002e20003fb80000d65a5580d,
  0x5c44c2000000000235d1ae8d846ba35d1af8d746ba35c000000000000026d00000000d65d9f826,
  0x1950ca800032a1950ca865432a00000000002e200065480000d2b25600d,
  0x20e01950ca800032a1950ca865432a00000000002e200013080000d2ba57041,
  0x4c2261130b29c00000000000000000000000000000ca66533298000ca500000000d2be5780b,
  0x4c227f13fc6c8000000000000000000000000000011b18d8c6c4000a6900000000d6601780b,
  0x1720b680002e416d0b905b42e400000000002e20008d980000d6641800d,
  0x1720b380002e41670b9059c2e400000000002e20008d980000d6681800d,
  0x4c2261130b2ec00000000000000000000000000000cba65d32e8000cb900000000cfe5fc80b,
  0x5c44c20000000001da6ed38dabb4dda71b4769bb4dda6000000000000026d00000000cfe9fd026,
  0x20f21950ca800032a1950ca865432a00000000002e200013080000cfedfd841,
  0x1950ca800032a1950ca865432a00000000002e200065c00000cff5fe80d,
  0x4c200053e00000cc518a024,
  0x11b78dc000236f1b88dbc6e236e00000000002e20008db00000cc558a80d,
  0x11b78dc800236f1b98dbc6e636e00000000002e20008db00000cc598b00d,
  0x4c22611308984000000000000000000000000000011ba8dd46e800026d00000000cc5d8b80b,
  0x4c31bc8de46f000000000000000000000000000001081840c2040011bb00000000cc618c00b,
  0x107f84080020ff08183fc2060fe00000000002e200083f00000cc658c80d,
  0x107f8de80020ff1bd83fc6f60fe00000000002e200083f00000cc698d00d,
  0x107f84000020ff08083fc2020fe00000000002e200083f00000cc6d8d80d,
  0x11bf8e0000237f1c08dfc70237e00000000002e20008df00000cc718e00d,
  0x11bf8e0800237f1c18dfc70637e00000000002e20008df00000cc758e80d,
  0x1950ca80023851c28e1470a38400000000002e200013080000cc798f00d,
  0x4c2a825414710000000000000000000000000000011c38e1c70c000a7f00000000cc7d8f80b,
  0xa845458001508a8b5422a2d50800000000002e20008e280000cc819000d,
  0xa8441c000150883854220e150800000000002e20008e280000cc859080d,
  0x4c200066580000cc8d91824,
  0x11c78e4000238f1c88e3c72238e00000000002e20008e300000cc999300d,
  0x11c78e4800238f1c98e3c72638e00000000002e20008e300000cc9d9380d,
  0x4c2cd666b4730000000000000000000000000000011cb8e5c72c0011ca00000000cca19400b,
  0x4c31ce8e747380000000000000000000000000000108f847c23c0011cd00000000cca59480b,
  0x108d847800211b08f846c23e11a00000000002e200084600000cca99500d,
  0x108d8e7800211b1cf846c73e11a00000000002e200084600000ccad9580d,
  0x108d847000211b08e846c23a11a00000000002e200084600000ccb19600d,
  0x11d18e900023a31d28e8c74a3a200000000002e20008e800000ccb59680d,
  0x11d18e980023a31d38e8c74e3a200000000002e20008e800000ccb99700d,
  0x4c20008ea00000ccbd97824,
  0xa8441980023ab1d68eac75a3aa00000000002e200054600000ccc19800d,
  0x4c2cd666b335800000000000000000000000000000cd26693348000ce000000000ccc59880b,
  0x4c309584ac25400000000000000000000000000000cdb66db36c0011d700000000cced9d80b,
  0x4c200084a80000ccf19e024,
  0xcd966d80019b2cdb66cb36d9b200000000002e200013080000ccf59e80d,
  0x4c31d98ecc7640000000000000000000000000000109b84dc26c0011d800000000c209e980b,
  0x109984d800213309b84cc26e13200000000002e200084c00000c20dea00d,
  0x10998ed00021331da84cc76a13200000000002e200084c00000c125ea80d,
  0x109984d000213309a84cc26a13200000000002e200084c00000c1e5eb00d,
  0xce306000019c60c08edb3a99c600000000002e200030b80000c1e5eb80d,
  0x4c20008ee00000c3a5ec024,
  0x4c31dc8ee477000000000000000000000000000000f05782bc140011dd00000000c3a9ec80b,
  0x11de0ca80023bc1958ef06563bc00000000002e200078100000c1fded00d,
  0x4c31e08f04780000000000000000000000000000010a3851c28c0011df00000000c209ed80b,
  0x10a185180021430a3850c28e14200000000002e200085000000c20dee00d,
  0x10a18f080021431e1850c78614200000000002e200085000000c125ee80d,
  0x10a185100021430a2850c28a14200000000002e200085000000c1e5ef00d,
  0x1720b380002e41678f2478c2e400000000002e20008f100000c20def80d,
  0x1720b680002e416d8f247942e400000000002e20008f100000c125ef80d,
  0x85731400023cd1e78f3479e3cc000000000153a00042f80000c1e5f000d,
  0x4c2aa3551aa8c00000000000000000000000000000cf467a33d0000aa100000000c3a9f080b,
  0x4c2aad556c2c0000000000000000000000000000011e88f447a00010ae00000000c209f100b,
  0x4c2261130bc80000000000000000000000000000011e98f4c7a4000f1e00000000c031f180b,
  0x4c31eb8f5c7ac000000000000000000000000000010ad856c2b40011ea00000000c209f280b,
  0x10ab85680021570ad855c2b615600000000002e200085500000c20df300d,
  0x10ab8f600021571ec855c7b215600000000002e200085500000c125f380d,
  0x10ab85600021570ac855c2b215600000000002e200085500000c1e5f400d,
  0x4c20008f680000c3a5f4824,
  0xcf931400019f26288f734059f200000000019f000068b00000c1e5f500d,
  0x4c2aa3551aa8c000000000000000000000000000011ef8f7c7bc000aa100000000c3a9f580b,
  0x4c20008f800000c3a5f6024,
  0x4c31f08f847c000000000000000000000000000000f1778bbc5c0011f100000000c3a9f680b,
  0x11f20ca80023e41958f906563e400000000002e200078a00000c1fdf700d,
  0x4c31f48fa47d0000000000000000000000000000010b785bc2dc0011f300000000c209f780b,
  0x10b585b800216b0b785ac2de16a00000000002e200085a00000c20df800d,
  0x10b58fa800216b1f585ac7d616a00000000002e200085a00000c125f880d,
  0x10b585b000216b0b685ac2da16a00000000002e200085a00000c1e5f900d,
  0x4c2aa3551aa8c00000000000000000000000000000aa45522a90000cf300000000c54df980b,
  0x85731680010ae62d8fc47dd0ae00000000002e20008fb00000c20dfa00d,
  0x85742f00010ae85e8fc47e50ae00000000002e20008fb00000c125fa80d,
  0x4c2261130b42000000000000000000000000000000d07683b41c000d0600000000c031fb00b,
  0x4c22611308984000000000000000000000000000010bd85ec2f400026d00000000c031fb80b,
  0x1950ca800032a1950ca865432a0000000001e5400013080000c039fc00d,
  0x4c2261130b43400000000000000000000000000000d0c6863430000d0b00000000c031fc80b,
  0x5c44c20000000001e48f248fdbc91e491fa7923c91e48000000000000026d00000000c09dfd026,
  0x21841950ca800032a1950ca865432a00000000002e200013080000c109fd841,
  0x4c200079300000c7a1fe024,
  0x1950ca800032a1950ca865432a00000000002e200068500000c039fe80d,
  0x1950ca800032a19568e347032a00000000002e200068d80000c039ff00d,
  0x23f81950ca800032a19568e347032a00000000002e200068d80000c109ff841,
  0x1950ca800032a19568e347032a00000000002e200068d80000c03a0000d,
  0x5c44c2000000000032a1950cac30c32b1fd0ca865432a000000000000026d00000000c09e00826,
  0x1950ca800032a19568e347032a0000000001e540008ff00000c03a0100d,
  0x1950ca800032a19568e347032a0000000001e540008ff00000c03a0180d,
  0x1950ca800032a19568e347032a0000000001e540008ff00000c03a0200d,
  0x4c32009004800000000000000000000000000000010cd866c3340011ff00000000c031e980b,
  0x10cb86680021970cd865c33619600000000002e200086500000c039ea00d,
  0x10cb9008002197201865c80619600000000002e200086500000c039ea80d,
  0x10cb86600021970cc865c33219600000000002e200086500000c039eb00d,
  0xd1f0ca8001a3e1959013495a3e00000000002e200031a00000c039eb80d,
  0x4c200090180000c095ec024,
  0x4c3203901c80c00000000000000000000000000000f3779bbcdc00120400000000c031ec80b,
  0x12050ca800240a195902865640a00000000002e200079a00000c039ed00d,
  0x4c3207903c81c000000000000000000000000000010d586ac35400120600000000c031ed80b,
  0x10d386a80021a70d5869c3561a600000000002e200086900000c039ee00d,
  0x10d390400021a7208869c8221a600000000002e200086900000c039ee80d,
  0x10d386a00021a70d4869c3521a600000000002e200086900000c039ef00d,
  0x1950ca800032a195905482832a00000000002e200090480000c039ef80d,
  0x86f31e000241720c905c832416000000000153a00043b80000c039f000d,
  0x4c2ac65632b1800000000000000000000000000000d2b695b4ac000ac400000000c031f080b,
  0x4c2acb565c3800000000000000000000000000000120d906c8340010de00000000c031f100b,
  0x4c320f907c83c000000000000000000000000000010dd86ec37400120e00000000c031f280b,
  0x10db86e80021b70dd86dc3761b600000000002e200086d00000c039f300d,
  0x10db90800021b721086dc8421b600000000002e200086d00000c039f380d,
  0x10db86e00021b70dc86dc3721b600000000002e200086d00000c039f400d,
  0x4c200090880000c095f4824,
  0xd2d31e0001a5a63c90934d5a5a00000000019f00006a080000c039f500d,
  0x4c2ac65632b1800000000000000000000000000001213909c84c000ac400000000c031f580b,
  0x4c200090a00000c095f6024,
  0x4c321490a485000000000000000000000000000000f457a2bd1400121500000000c031f680b,
  0x12160ca800242c19590b065642c00000000002e20007a100000c039f700d,
  0x4c321890c4860000000000000000000000000000010e7873c39c00121700000000c031f780b,
  0x10e587380021cb0e7872c39e1ca00000000002e200087200000c039f800d,
  0x10e590c80021cb219872c8661ca00000000002e200087200000c039f880d,
  0x10e587300021cb0e6872c39a1ca00000000002e200087200000c039f900d,
  0x4c2ac65632b1800000000000000000000000000000ac7563ab1c000d2a00000000c031f980b,
  0x86f32080010de64190e486d0de00000000002e200090d00000c039fa00d,
  0x86f43b00010de87690e48750de00000000002e200090d00000c039fa80d,
  0x4c20007a580000c095fe024,
  0xe00007a700002c096cf824,
  0xe00007a900002c096d0024,
  0xe00007ad00002c096d3024,
  0xe00007af00002c096d3824,
  0x9804c0000130098457a2bc130000000000161200058400003d6b8075ad,
  0x1ee809804c0000130098459a2cc130000000000009800045900003d6bc215ae,
  0x243c09804c0000130098459a2cc130000000000009800045900003d6c0075af,
  0x13012c000000000243f21f910c87e43f22090fc87e43e000000000000009e00000003d6c413db0,
  0x87b00003d6c8005b1,
  0x2447223911c88e446000000000244400000000003d6cc005b2,
  0x10f787bc3dc00000000000003d6d0005b3,
  0x7b6bdb4000000000000000000091200003d6d4005b4,
  0x1ec600000000000000007b6bdb4000000000000000000091200003d6d8005b5,
  0x35d400000000000000000000000000001225912c894000d7300000003d6dc005b6,
  0x244d226913c89a44d227913489a44c000000000000000000000003d6e0005b7,
  0x10ff87fc3fc00000000000003d6e4005b8,
  0x48a800000000000000000000000000001229914c8a400122800000003d6e8005b9,
  0x245722b91648ae45722c915c8ae456000000000000000000000003d6ec005ba,
  0x91680003d6f0005bb,
  0x245c00000000003d6f4005bc,
  0x9804c000013009804c026013000000000000980006c180003d6f8075bd,
  0x6c200003d6fc005be,
  0x220009804c000013009804c0260130000000000009800004b00003d700215bf,
  0x12c09604b360400000000000000000000000000000d806c03600000d7f00000003d704065c0,
  0x48c40000000000000000000000000000123091848c000122f00000003d708005c1,
  0x91900003d70c005c2,
  0x13012c000000000013009804c2c6c13123304c0260130000000000000009e00000003d71013dc3,
  0x9804c00001300986c33618130000000000118000091a00003d714075c4,
  0x9804c00001300986c33618130000000000118000091a00003d718075c5,
  0x9804c00001300986c33618130000000000118000091a00003d71c075c6,
  0x91b48d8000000000000245c00091a80003d720005c7,
  0x88680003d726925c8,
  0x247123891c48e2470000000000246e00000000003d72a92dc9,
  0x110e887443800000000000003d72e935ca,
  0x7c2be14000000000000000000091c80003d73293dcb,
  0x119200000000000000007c2be14000000000000000000091c80003d736945cc,
  0x1a8c0000000000000000000000000000123a91d48e80006a100000003d73a94dcd,
  0x88980003d73c005ce,
  0x247923c91e48f2478000000000247600000000003d740005cf,
  0xd976cbb65c00000000000003d744005d0,
  0x1a8c0000000000000000000000000000123d91ec8f40006a100000003d748005d1,
  0x167209804c000013009804c0260130000000000009800004b00003d74c215d2,
  0x12c09604b366c00000000000000000000000000000d9a6cd3668000d9900000003d750065d3,
  0x444c00000000000000000000000000001112889444800111100000003d754005d4,
  0xaad11888c446000000000000000000000000000000da26d1368800123e0000002bd3ca954f1,
  0xaac00088c0002bd3ce95cf2,
  0xda06d10001b40da26d03689b40000000000070a0002ab0002bd3d2964f3,
  0x13120007ca00017d3d696cf4,
  0x17c111c88e447000000000000000000000000000000daa6d536a800123f0000003fd3da974f5,
  0x17c000088e0003fd3de97cf6,
  0xda86d50001b50daa6d436a9b50000000000131e0005f00003fd3e2984f7,
  0x12c49524ab6b800000000000000000000000000000dad6d6b6b4000b4a00000003d75a98dd5,
  0x499185800093230b24c8c2c93200000000000980006d780003d75e995d6,
  0x49924e000093249c24c927093200000000000980006d780003d76299dd7,
  0x6cb04c0000d960983658260d9600000000000980006d780003d7669a5d8,
  0x12c49524ab6b800000000000000000000000000000dad6d6b6b400049200000003d76a9add9,
  0xaad124892449000000000000000000000000000000db36d9b6cc0012400000002bd76e9cdda,
  0xaac0008920002bd7729d5db,
  0xdb16d98001b62db36d8b6cdb62000000000070a0002ab0002bd7769dddc,
  0x13120007d380017d77a9e5dd,
  0x17c112889444a000000000000000000000000000000dbd6deb6f40012410000003fd77e9edde,
  0x17c00008940003fd7829f5df,
  0xdbb6de8001b76dbd6ddb6f5b76000000000131e0005f00003fd7869fde0,
  0x12c0006df00003d47aa051d,
  0x92100003d78aa0de1,
  0x9804c00001300989224910130000000000009800092180003d78dff5e2,
  0x248a09804c00001300989224910130000000000009800092180003d791ffde3,
  0x248c09804c00001300989224910130000000000009800092180003d796005e4,
  0xf203d000248f248923c92248e00000000005c000007880003d7982a5e5,
  0x12c2e61730b9800000000000000000000000000000dc96e4b7240002e400000003d79c2ade6,
  0x12c1cf0e78bc000000000000000000000000000001249924c9240002ee00000003d7a02b5e7,
  0xe000092500002c3a6448e8,
  0xe124a925492800000000000000000000000000000fbb7ddbeec00124b00000002c3aa450e9,
  0x124c018000249803092600c249800000000000da0007dc00002c1fe4587e,
  0xdd46e980002101ee08407b821000000000000da0006ea80002c20e46082,
  0xe113789bc4dc00000000000000000000000000000dd96ecb76400124d00000002c54e46952,
  0xe000089b80002c54647150,
  0xdd76ec8001baedd96ebb765bae00000000000da00003800002c3a2478e7,
  0xe000092700002c3a6480e8,
  0xe124e927493800000000000000000000000000000fc37e1bf0c00124f00000002c3aa488e9,
  0x125001800024a003092800c24a000000000000da0007e000002c1fe4907e,
  0xe06f737b9bdc00000000000000000000000000000ddc6ee3770000dd200000002c20a49881,
  0x1080838000210107084041c21000000000000da0006ee80002c1e64a078,
  0x1080f700002101ee08407b821000000000000da0006ee80002c20e4a082,
  0x32f018000065e03019780c065e00000000000da0006ee80002c1fe4a07e,
  0x7022718000e044e3929c948e040000000000cae00092880002c20e4a882,
  0x7023848000e04709929c950e040000000000cae00092880002c1264b048,
  0x70226f0000e044de6f0377ce040000000000cae00092a80002c1e64b878,
  0xe000092b00002c3a64d0e8,
  0xe125692b495800000000000000000000000000000fcc7e63f3000125700000002c3aa4d8e9,
  0x125801800024b003092c00c24b000000000000da0007e480002c1fe4e07e,
  0xe093949ca4e4000000000000000000000000000011498a4c524000b8b00000002c54e4e952,
  0xde36f10000e044e3381138ce0400000000000da0006f200002c20e4f082,
  0x70226f0000e044de3811378e04000000000114c00038500002c1e64f878,
  0xe114a8a5452800000000000000000000000000000de86f437a000125900000002c54e50152,
  0xe00008a500002c54650950,
  0xde66f40001bccde86f337a1bcc00000000000da00003800002c3a2510e7,
  0xe000092d00002c3a6518e8,
  0xe125a92d496800000000000000000000000000000fd67eb3f5800125b00000002c3aa520e9,
  0x125c01800024b803092e00c24b800000000000da0007e980002c1fe5287e,
  0xe07003801c0000000000000000000000000000000dec6f637b000125d00000002c20a53081,
  0x70226f0000e044de3811378e0400000000000da0006f680002c1e653878,
  0x7022718000e044e3381138ce0400000000000da0006f680002c20e54082,
  0x947018000128e0304a380c128e00000000000da0006f680002c1fe5487e,
  0x9d000000000000000000000000000000000000000000000000001a002f4de8,
  0x8ab80001a002f55e9,
  0x24bf25f92fc97e4be00000000024bc00000000001a002f5dea,
  0x11588ac456000000000000001a002f65eb,
  0x7f23f90000000000000000000093000001a002f6dec,
  0x12c000000000000000007f23f90000000000000000000093000001a002f75ed,
  0x381400000000000000000000000000001261930c984000e0300000001a002f7dee,
  0x24c5262931c98a4c5263931498a4c4000000000000000000000001a002f85ef,
  0x933499800000000000024ca00093200001a002f8df0,
  0x49a40000000000000000000000000000126893449a000126700000001a002f95f1,
  0x93500001a002f9df2,
  0xa4a00000000000000000000000000000000000000000000000003d7a6f4de8,
  0x8b100003d7aaf55e9,
  0x24d926c93649b24d800000000024d600000000003d7aef5dea,
  0x11638b1c58c00000000000003d7b2f65eb,
  0x7f9bfcc000000000000000000093680003d7b6f6dec,
  0x133200000000000000007f9bfcc000000000000000000093680003d7baf75ed,
  0x38900000000000000000000000000000126e93749b8000e2200000003d7bef7dee,
  0x24df26f93849be4df270937c9be4de000000000000000000000003d7c2f85ef,
  0x939c9cc00000000000024e400093880003d7c6f8df0,
  0x49d80000000000000000000000000000127593ac9d400127400000003d7caf95f1,
  0x93b80003d7cef9df2,
  0xaac00093c0002bd22644c88,
  0xaad27893c49e000000000000000000000000000000ffc7fe3ff00012790000002bd22a45489,
  0x127a2ac00024f455893d15624f4000000000070a0007fc8002bd22e45c8a,
  0xe31718000013009804c0260130000000000009800071900003d2324648b,
  0x131316e8b745b800000000000000000000000000000e3671b38d800127b00000017d23646c8c,
  0x13120008b700017d23a4748d,
  0xe3471b0001c68e3671a38d9c680000000000e900004c480017d23e47c8e,
  0x17c000093e0003fd2424848f,
  0x17c127c93e49f000000000000000000000000000001004802401000127d0000003fd24648c90,
  0x127e5f100024fcbe293f2f8a4fc000000000131e0008008003fd24a49491,
  0x12c77a3bd1de800000000000000000000000000000e3971cb8e4000e2f00000003d24e49c92,
  0x9804c000013009804c026013000000000000980003bd00003d2524a493,
  0x7822b98000f04573940ca00f040000000000a7400093f80003d2564ac94,
  0x7823c48000f04789940ca08f040000000000a7400093f80003d25a4b495,
  0x7822b70000f0456e71e38ecf040000000000a7400094180003d25e4bc96,
  0xaac0009420002bd26a4d499,
  0xaad2849424a100000000000000000000000000000100c80640300012850000002bd26e4dc9a,
  0x12862ac000250c558943156250c000000000070a0008048002bd2724e49b,
  0x12c9c64e327180000000000000000000000000000117e8bf45f8000c1000000003d2764ec9c,
  0xe3f71f0000f045733c115ccf04000000000009800072000003d27a4f49d,
  0x7822b70000f0456e3c115b8f040000000000ee00003c500003d27e4fc9e,
  0x131317f8bfc5fc00000000000000000000000000000e44722391000128700000017d2825049f,
  0x13120008bf80017d28650ca0,
  0xe427220001c84e447213911c840000000000e900004c480017d28a514a1,
  0x17c00009440003fd28e51ca2,
  0x17c12889444a200000000000000000000000000000101680b40580012890000003fd292524a3,
  0x128a5f10002514be29452f8a514000000000131e0008098003fd29652ca4,
  0x12c7803c01e0000000000000000000000000000000e48724392000128b00000003d29a534a5,
  0x7822b70000f0456e3c115b8f04000000000009800072480003d29e53ca6,
  0x7822b98000f045733c115ccf04000000000009800072480003d2a2544a7,
  0x9d404c00013a80984ea02613a8000000000009800072480003d2a654ca8,
  0xe000080d80002c4aacf929,
  0xe000080f80002c4aad0129,
  0xe000081380002c4aad3129,
  0xe000081580002c4aad3929,
  0x1950ca800032a1954fc27e032a00000000018a000062780000d6b80700d,
  0x20701950ca800032a1954fda7ec32a00000000002e20004fd00000d6bc21041,
  0x1950ca800032a1954fda7ec32a00000000002e20004fd00000d6c00700d,
  0x5c44c2000000000251928c9474a3251928d9464a32518000000000000026d00000000d6c413826,
  0x1950ca800032a1950ca865432a00000000002e200074180000d6f80700d,
  0x23221950ca800032a1950ca865432a00000000002e200013080000d70021041,
  0x4c2261130ba0400000000000000000000000000000e807403a00000e7f00000000d7040600b,
  0x5c44c2000000000032a1950cab17c32b28f0ca865432a000000000000026d00000000d71013826]

def splitStates9 : List Nat := [
  0x1950ca800032a195742ba1432a000000000141000094800000d7140700d,
  0x1950ca800032a195742ba1432a000000000141000094800000d7180700d,
  0x1950ca800032a195742ba1432a000000000141000094800000d71c0700d,
  0x18e81950ca800032a1950ca865432a00000000002e200013080000d74c21041,
  0x4c2261130ba4800000000000000000000000000000e91748ba44000e9000000000d7500600b,
  0x4c319a8cd466800000000000000000000000000000e9874c3a6000129100000000d3ca9500b,
  0x4c20008cd00000d3ce95824,
  0xe9674c0001d2ce9874b3a61d2c00000000002e200013080000d3d29600d,
  0x4c200082780000d3d696824,
  0x4c319e8cf467800000000000000000000000000000ea07503a8000129200000000d3da9700b,
  0x4c20008cf00000d3de97824,
  0xe9e7500001d3cea074f3a81d3c00000000002e200013080000d3e29800d,
  0x4c25d02e83a9000000000000000000000000000000ea3751ba8c000c8500000000d75a9880b,
  0x5d51f18000baa3e32ea8f8cbaa00000000002e200075280000d75e9900d,
  0x5d52ec0000baa5d82ea9760baa00000000002e200075280000d7629980d,
  0x8050ca800100a195402865500a00000000002e200075280000d7669a00d,
  0x4c25d02e83a9000000000000000000000000000000ea3751ba8c0005cd00000000d76a9a80b,
  0x4c31a68d3469800000000000000000000000000000eaa7553aa800129300000000d76e9c80b,
  0x4c20008d300000d7729d024,
  0xea87550001d50eaa7543aa9d5000000000002e200013080000d7769d80d,
  0x4c200083180000d77a9e024,
  0x4c31aa8d546a800000000000000000000000000000eb475a3ad000129400000000d77e9e80b,
  0x4c20008d500000d7829f024,
  0xeb275a0001d64eb47593ad1d6400000000002e200013080000d7869f80d,
  0x4c200075a80000d47aa0024,
  0x1950ca800032a19594b4a5832a00000000002e200094a80000d78dff00d,
  0x252e1950ca800032a19594b4a5832a00000000002e200094a80000d791ff841,
  0x1950ca800032a19594b4a5832a00000000002e200094a80000d7960000d,
  0x172060000253129994c4a66530000000000077e0000b800000d7982a00d,
  0x4c23c51e28f1400000000000000000000000000000ecb765bb2c0003c300000000d79c2a80b,
  0x4c227f13f8f340000000000000000000000000000129a94d4a680003cb00000000d7a02b00b,
  0x20f21950ca800032a19553829c032a00000000002e200053780000d2aa55041,
  0x1950ca800032a19553829c032a00000000002e200053780000d2ae5580d,
  0x4c329c94e4a70000000000000000000000000000011b98dcc6e400129b00000000cf4de980b,
  0x11b78dc800236f1b98dbc6e636e00000000002e20008db00000cf51ea00d,
  0x11b794e800236f29d8dbca7636e00000000002e20008db00000cf55ea80d,
  0x11b78dc000236f1b88dbc6e236e00000000002e20008db00000cf59eb00d,
  0xed70ca8001dae19594f3b75dae00000000002e200041580000cf5deb80d,
  0x4c200094f80000cf61ec024,
  0x4c329f94fca7c00000000000000000000000000001081840c2040012a000000000cf65ec80b,
  0x12a10ca8002542195950865654200000000002e200083f00000cf69ed00d,
  0x4c32a3951ca8c000000000000000000000000000011c18e0c7040012a200000000cf6ded80b,
  0x11bf8e0800237f1c18dfc70637e00000000002e20008df00000cf71ee00d,
  0x11bf952000237f2a48dfca9237e00000000002e20008df00000cf75ee80d,
  0x11bf8e0000237f1c08dfc70237e00000000002e20008df00000cf79ef00d,
  0x1950ca800032a1959534a9832a00000000002e200095280000cf7def80d,
  0xa84419800254f2a8953caa254e0000000000fd800054600000cf81f000d,
  0x4c2cd1668b34400000000000000000000000000000ee3771bb8c000ccf00000000cf85f080b,
  0x4c2cd666b4730000000000000000000000000000012a9954caa40011ca00000000cf89f100b,
  0x4c32ab955caac000000000000000000000000000011c98e4c7240012aa00000000cf95f280b,
  0x11c78e4800238f1c98e3c72638e00000000002e20008e300000cf99f300d,
  0x11c7956000238f2ac8e3cab238e00000000002e20008e300000cf9df380d,
  0x11c78e4000238f1c88e3c72238e00000000002e20008e300000cfa1f400d,
  0x4c200095680000cfa5f4824,
  0xee54198001dca8339573bb5dca000000000147000077c80000cfa9f500d,
  0x4c2cd1668b344000000000000000000000000000012af957cabc000ccf00000000cfadf580b,
  0x4c200095800000cfb1f6024,
  0x4c32b09584ac00000000000000000000000000000108f847c23c0012b100000000cfb5f680b,
  0x12b20ca8002564195959065656400000000002e200084600000cfb9f700d,
  0x4c32b495a4ad0000000000000000000000000000011d38e9c74c0012b300000000cfbdf780b,
  0x11d18e980023a31d38e8c74e3a200000000002e20008e800000cfc1f800d,
  0x11d195a80023a32b58e8cad63a200000000002e20008e800000cfc5f880d,
  0x11d18e900023a31d28e8c74a3a200000000002e20008e800000cfc9f900d,
  0x4c2cd1668b34400000000000000000000000000000cd26693348000ee200000000cfcdf980b,
  0xa8441c000150883895c4add50800000000002e200095b00000cfd1fa00d,
  0xa845458001508a8b95c4ae550800000000002e200095b00000cfd5fa80d,
  0x4c200084a80000cff1fe024,
  0x4c200095d00000c3a644824,
  0x4c32ba95d4ae80000000000000000000000000000109b84dc26c0012bb00000000c3aa4500b,
  0x12bc0ca800257819595e065657800000000002e200084c00000c1fe4580d,
  0xf0077f80002e41670b9059c2e400000000002e200078080000c20e4600d,
  0x4c31dc8ee477000000000000000000000000000000f05782bc140012bd00000000c54e4680b,
  0x4c20008ee00000c54647024,
  0xf037828001e06f05781bc15e0600000000002e200013080000c3a24780d,
  0x4c200095f00000c3a648024,
  0x4c32be95f4af8000000000000000000000000000010a3851c28c0012bf00000000c3aa4880b,
  0x12c00ca8002580195960065658000000000002e200085000000c1fe4900d,
  0x4c2849424a12400000000000000000000000000000f087843c20000efe00000000c20a4980b,
  0x17206000002e40c00b903002e400000000002e200078480000c1e64a00d,
  0x1720b380002e41670b9059c2e400000000002e200078480000c20e4a00d,
  0x27d0ca80004fa19513e86544fa00000000002e200078480000c1fe4a00d,
  0x85731680010ae62d961cb090ae00000000019f000096080000c20e4a80d,
  0x85742f00010ae85e961cb110ae00000000019f000096080000c1264b00d,
  0x85731400010ae6287863c2d0ae00000000019f000096280000c1e64b80d,
  0x1950ca800032a1955532a9832a00000000019f000085d80000c03a4c00d,
  0x4c200096300000c3a64d024,
  0x4c32c69634b18000000000000000000000000000010ad856c2b40012c700000000c3aa4d80b,
  0x12c80ca8002590195964065659000000000002e200085500000c1fe4e00d,
  0x4c2aa3551aa8c000000000000000000000000000011ef8f7c7bc000cf300000000c54e4e80b,
  0xf1278880010ae62d42b98b50ae00000000002e200078980000c20e4f00d,
  0x85731400010ae62842b98a10ae0000000001e5400042f80000c1e64f80d,
  0x4c31f08f847c000000000000000000000000000000f1778bbc5c0012c900000000c54e5000b,
  0x4c20008f800000c54650824,
  0xf1578b8001e2af1778abc5de2a00000000002e200013080000c3a25100d,
  0x4c200096500000c3a651824,
  0x4c32ca9654b28000000000000000000000000000010b785bc2dc0012cb00000000c3aa5200b,
  0x12cc0ca8002598195966065659800000000002e200085a00000c1fe5280d,
  0x4c2852429214800000000000000000000000000000f1b78dbc6c0012cd00000000c20a5300b,
  0x85731400010ae62842b98a10ae00000000002e200078e00000c1e65380d,
  0x85731680010ae62d42b98b50ae00000000002e200078e00000c20e5400d,
  0xab60ca800156c19555b065556c00000000002e200078e00000c1fe5480d,
  0x21841950ca800032a195554aaa432a00000000002e200055400000c10a55041,
  0x1950ca800032a195554aaa432a00000000002e200055400000c03a5580d,
  0x1950ca800032a1950ca865432a00000000002e200079780000c03a5600d,
  0x23f81950ca800032a1950ca865432a00000000002e200013080000c10a57041,
  0x4c2261130bcb400000000000000000000000000000f2c7963cb0000f2b00000000c0325780b,
  0x4c200096700000c09644824,
  0x4c32ce9674b38000000000000000000000000000010cd866c3340012cf00000000c0324500b,
  0x12d00ca80025a019596806565a000000000002e200086500000c03a4580d,
  0xf32798800032a1950ca865432a00000000002e200079980000c03a4600d,
  0x4c3203901c80c00000000000000000000000000000f3779bbcdc0012d100000000c0324680b,
  0x4c200090180000c09647024,
  0xf3579b8001e6af3779abcdde6a00000000002e200013080000c03a4780d,
  0x4c200096900000c09648024,
  0x4c32d29694b48000000000000000000000000000010d586ac3540012d300000000c0324880b,
  0x12d40ca80025a819596a06565a800000000002e200086900000c03a4900d,
  0x4c2867433a19c00000000000000000000000000000f3a79d3ce8000f3000000000c0324980b,
  0x1950ca800032a1950ca865432a00000000002e200043380000c03a4a00d,
  0x86f32080010de64196bcb590de00000000019f000096a80000c03a4a80d,
  0x86f43b00010de87696bcb610de00000000019f000096a80000c03a4b00d,
  0x86f31e00010de63c79ebcf10de00000000019f000096c80000c03a4b80d,
  0x4c200096d00000c0964d024,
  0x4c32da96d4b68000000000000000000000000000010dd86ec3740012db00000000c0324d80b,
  0x12dc0ca80025b819596e06565b800000000002e200086d00000c03a4e00d,
  0x4c2ac65632b1800000000000000000000000000001213909c84c000d2a00000000c0324e80b,
  0xf4079f80010de64143799050de00000000002e20007a080000c03a4f00d,
  0x86f31e00010de63c43798f10de0000000001e5400043b80000c03a4f80d,
  0x4c321490a485000000000000000000000000000000f457a2bd140012dd00000000c0325000b,
  0x4c200090a00000c09650824,
  0xf437a28001e86f457a1bd15e8600000000002e200013080000c03a5100d,
  0x4c200096f00000c09651824,
  0x4c32de96f4b78000000000000000000000000000010e7873c39c0012df00000000c0325200b,
  0x12e00ca80025c019597006565c000000000002e200087200000c03a5280d,
  0x4c286d436a1b400000000000000000000000000000f497a4bd240012e100000000c0325300b,
  0x86f31e00010de63c43798f10de00000000002e20007a500000c03a5380d,
  0x86f32080010de64143799050de00000000002e20007a500000c03a5400d,
  0xad40ca80015a819556a06555a800000000002e20007a500000c03a5480d,
  0x97100003d7d0005f3,
  0x9804c00001300989724b90130000000000009800097180003d7d4075f4,
  0x25ca09804c00001300989724b90130000000000009800097180003d7d8215f5,
  0x25cc09804c00001300989724b90130000000000009800097180003d7dc075f6,
  0x43dc0012e70000000000000000000000000000000003d7e0005f7,
  0x7b6bdb40000000000001ed80007b580003d7e4005f8,
  0x43d8000000000000000000000000000010f587ac3d40010f400000003d7e8005f9,
  0x7b6bdb40000000000001ed80007b580003d7ec005fa,
  0x882c414000000000000000000097400003d7f0005fb,
  0x22020000000000000000882c414000000000000000000097400003d7f4005fc,
  0x91500003d7f8005fd,
  0x25d52ea9754baa5d400000000025d200000000003d7fc005fe,
  0x122b915c8ac00000000000003d800005ff,
  0x87f43f8000000000000000000097580003d80400600,
  0x1626000000000000000087f43f8000000000000000000097580003d80800601,
  0x3dcc000000000000000000000000000012ec9764bb0000f7100000003d80c00602,
  0x25db2ed9774bb65db2ee976cbb65da000000000000000000000003d81000603,
  0x91880003d81400604,
  0x25e12f09784bc25e000000000025de00000000003d81800605,
  0x1226913489800000000000003d81c00606,
  0x35d4000000000000000000000000000012f1978cbc4000d7300000003d82000607,
  0x1b0e09804c000013009804c0260130000000000009800004b00003d82421608,
  0x12c09604b3dfc00000000000000000000000000000f7e7bf3df8000f7d00000003d82806609,
  0x4bd0000000000000000000000000000012f3979cbcc0012f200000003d82c0060a,
  0x97a80003d8300060b,
  0x44380012f60000000000000000000000000000000003d836cde0c,
  0x7c2be140000000000001f080007c180003d83ace60d,
  0x44340000000000000000000000000000110c886443000110b00000003d83ecee0e,
  0x7c2be140000000000001f080007c180003d842cf60f,
  0x365c0012f70000000000000000000000000000000003d84400610,
  0x7c53e28000000000000166c00088b80003d84800611,
  0x7c53e28000000000000166c00088b80003d84c00612,
  0xaac00088c0002bd5eecfd7a,
  0x17c000088e0003fd5f2d057b,
  0xaac0008920002bd852d3613,
  0x17c00008940003fd856d3e14,
  0x4be8000000000000000000000000000012f997ccbe40012f800000003d85ad4615,
  0x12c09604b4bf4000000000000000000000000000012fc97e4bf00012fb00000003d85d3f616,
  0x9804c000013009804c0260130000000000009800097f00003d8613fe17,
  0x9804c000013009804c0260130000000000009800097f80003d86656618,
  0x98000003d86a56e19,
  0xf207400001e40e87db4c081e400000000008c800098080003d86c4e61a,
  0xf207700001e40ee7db4c0c1e400000000008c800098080003d8704e61b,
  0xf203d00001e407a7db3ed41e400000000008c800098080003d8744f61c,
  0xe124a925492800000000000000000000000000000fbb7ddbeec00130400000002c54e95152,
  0xe000092500002c54695950,
  0xfb97dd8001f72fbb7dcbeedf7200000000000da00003800002c3a2960e7,
  0xe000089b80002c7a2969e7,
  0xe124e927493800000000000000000000000000000fc37e1bf0c00130500000002c54e97152,
  0xe000092700002c54697950,
  0xfc17e18001f82fc37e0bf0df8200000000000da00003800002c3a2980e7,
  0xe07003803f1c00000000000000000000000000000fc67e33f18000de100000002c20a98881,
  0x70226f0000e044de3811378e0400000000000da0007e400002c1e699078,
  0x7022718000e044e3381138ce0400000000000da0007e400002c20e99882,
  0x947018000128e0304a380c128e00000000000da0007e400002c1fe9a07e,
  0xe07003803f1c00000000000000000000000000000fc67e33f180006fd00000002c20a9a881,
  0xe125692b495800000000000000000000000000000fcc7e63f3000130600000002c54e9c952,
  0xe000092b00002c5469d150,
  0xfca7e60001f94fcc7e53f31f9400000000000da00003800002c3a29d8e7,
  0xe00008a500002c7a29e1e7,
  0xe125a92d496800000000000000000000000000000fd67eb3f5800130700000002c54e9e952,
  0xe000092d00002c5469f150,
  0xfd47eb0001fa8fd67ea3f59fa800000000000da00003800002c3a29f8e7,
  0xe00007eb80002c3a6a00e8,
  0x45600013080000000000000000000000000000000001a0030f61d,
  0x7f23f900000000000001fc60007f100001a0030fe1e,
  0x455c000000000000000000000000000011568ab455800115500000001a0031061f,
  0x7f23f900000000000001fc60007f100001a00310e20,
  0x8af4578000000000000000000098480001a00311621,
  0x17a200000000000000008af4578000000000000000000098480001a00311e22,
  0x4c300000000000000000000000000000130b985cc2c00130a00000001a00312623,
  0x261b30d9874c3661b30e986cc3661a000000000000000000000001a00312e24,
  0x98780001a00313625,
  0x93480001a00313e26,
  0x2623311988cc46622000000000262000000000001a00314627,
  0x1262931498800000000000001a00314e28,
  0x3814000000000000000000000000000013129894c48000e0300000001a00315629,
  0x458c0013130000000000000000000000000000000003d87b0f61d,
  0x7f9bfcc0000000000001fe40007f880003d87f0fe1e,
  0x4588000000000000000000000000000011618b0c58400116000000003d8831061f,
  0x7f9bfcc0000000000001fe40007f880003d88710e20,
  0x8b4c5a4000000000000000000098a00003d88b11621,
  0x180200000000000000008b4c5a4000000000000000000098a00003d88f11e22,
  0x4c5c0000000000000000000000000000131698b4c5800131500000003d89312623,
  0x263131898ccc6263131998c4c62630000000000000000000000003d89712e24,
  0x98d00003d89b13625,
  0x93b00003d89f13e26,
  0x263931c98e4c72638000000000263600000000003d8a314627,
  0x126f937c9bc00000000000003d8a714e28,
  0x38900000000000000000000000000000131d98ecc74000e2200000003d8ab15629,
  0xaad27893c49e000000000000000000000000000000ffc7fe3ff000131e0000002bd4aa95529,
  0xaac00093c0002bd4ae95d2a,
  0xffa7fe0001ff4ffc7fd3ff1ff4000000000070a0002ab0002bd4b29652b,
  0x13120008b700017d4b696d2c,
  0x17c127c93e49f000000000000000000000000000001004802401000131f0000003fd4ba9752d,
  0x17c000093e0003fd4be97d2e,
  0x100280200020050048014012004000000000131e0005f00003fd4c29852f,
  0x12c7803c0401c000000000000000000000000000010068034018000e3d00000003d4c698d30,
  0x7822b70000f0456e3c115b8f04000000000009800080400003d4ca99531,
  0x7822b98000f045733c115ccf04000000000009800080400003d4ce99d32,
  0x9d404c00013a80984ea02613a8000000000009800080400003d4d29a533,
  0x12c7803c0401c00000000000000000000000000001006803401800077d00000003d4d69ad34,
  0xaad2849424a100000000000000000000000000000100c80640300013200000002bd4e69cd38,
  0xaac0009420002bd4ea9d539,
  0x100a806000201500c8054032014000000000070a0002ab0002bd4ee9dd3a,
  0x13120008bf80017d4f29e53b,
  0x17c12889444a200000000000000000000000000000101680b40580013210000003fd4f69ed3c,
  0x17c00009440003fd4fa9f53d,
  0x101480b000202901680a405a028000000000131e0005f00003fd4fe9fd3e,
  0x12c00080b80003d502a053f,
  0x1950ca800032a195991cc8c32a00000000002e200099100000d7d40700d,
  0x26481950ca800032a195991cc8c32a00000000002e200099100000d7d821041,
  0x1950ca800032a195991cc8c32a00000000002e200099100000d7dc0700d,
  0x1d0c1950ca800032a1950ca865432a00000000002e200013080000d82421041,
  0x4c2261130c10800000000000000000000000000001041820c10400104000000000d8280600b,
  0x4c20008cd00000d5eecf824,
  0x4c20008cf00000d5f2d0024,
  0x4c20008d300000d852d3024,
  0x4c20008d500000d856d3824,
  0x4c2261130cc9c000000000000000000000000000013269934c9800132500000000d85d3f00b,
  0x1950ca800032a1950ca865432a00000000002e200099400000d8613f80d,
  0x1950ca800032a1950ca865432a00000000002e200099480000d8665600d,
  0x1720b380002e416783accac2e40000000000b5000099500000d86c4e00d,
  0x1720b680002e416d83accb02e40000000000b5000099500000d8704e00d,
  0x17206000002e40c083ac1d02e40000000000b5000099500000d8744f00d,
  0x4c200099680000d22644824,
  0x4c332d996ccb4000000000000000000000000000011b98dcc6e400132e00000000d22a4500b,
  0x132f0ca800265e195997865665e00000000002e20008db00000d22e4580d,
  0x107c83d800032a1950ca865432a00000000002e200083e80000d2324600d,
  0x4c329f94fca7c00000000000000000000000000001081840c20400133000000000d2364680b,
  0x4c200094f80000d23a47024,
  0x107f84080020ff08183fc2060fe00000000002e200013080000d23e4780d,
  0x4c200099880000d24248024,
  0x4c3331998ccc4000000000000000000000000000011c18e0c70400133200000000d2464880b,
  0x13330ca8002666195999865666600000000002e20008df00000d24a4900d,
  0x4c2a7c53e29f000000000000000000000000000001084842421000107a00000000d24e4980b,
  0x1950ca800032a1950ca865432a00000000002e200053e00000d2524a00d,
  0xa8441c000150883899b4cd5508000000000147000099a00000d2564a80d,
  0xa845458001508a8b99b4cdd508000000000147000099a00000d25a4b00d,
  0xa844198001508833843c219508000000000147000099c00000d25e4b80d,
  0x4c200099c80000d26a4d024,
  0x4c333999ccce4000000000000000000000000000011c98e4c72400133a00000000d26e4d80b,
  0x133b0ca800267619599d865667600000000002e20008e300000d2724e00d,
  0x4c2cd1668b344000000000000000000000000000012af957cabc000ee200000000d2764e80b,
  0x108a844800150883854220e150800000000002e200084580000d27a4f00d,
  0xa84419800150883354220cd508000000000194800054600000d27e4f80d,
  0x4c32b09584ac00000000000000000000000000000108f847c23c00133c00000000d2825000b,
  0x4c200095800000d28650824,
  0x108d847800211b08f846c23e11a00000000002e200013080000d28a5100d,
  0x4c200099e80000d28e51824,
  0x4c333d99eccf4000000000000000000000000000011d38e9c74c00133e00000000d2925200b,
  0x133f0ca800267e19599f865667e00000000002e20008e800000d2965280d,
  0x4c2a825412a0800000000000000000000000000001093849c24c00134000000000d29a5300b,
  0xa84419800150883354220cd50800000000002e200084a00000d29e5380d,
  0xa8441c000150883854220e150800000000002e200084a00000d2a25400d,
  0xcdf0ca80019be19566f86559be00000000002e200084a00000d2a65480d,
  0x4c32ba95d4ae80000000000000000000000000000109b84dc26c00134100000000c54e9500b,
  0x4c200095d00000c54695824,
  0x109984d800213309b84cc26e13200000000002e200013080000c3a29600d,
  0x4c20008ee00000c7a296824,
  0x4c32be95f4af8000000000000000000000000000010a3851c28c00134200000000c54e9700b,
  0x4c200095f00000c54697824,
  0x10a185180021430a3850c28e14200000000002e200013080000c3a29800d,
  0x4c2852429429c000000000000000000000000000010a68534298000f0e00000000c20a9880b,
  0x85731400010ae62842b98a10ae00000000002e200085400000c1e69900d,
  0x85731680010ae62d42b98b50ae00000000002e200085400000c20e9980d,
  0xab60ca800156c19555b065556c00000000002e200085400000c1fe9a00d,
  0x4c2852429429c000000000000000000000000000010a6853429800084f00000000c20a9a80b,
  0x4c32c69634b18000000000000000000000000000010ad856c2b400134300000000c54e9c80b,
  0x4c200096300000c5469d024,
  0x10ab85680021570ad855c2b615600000000002e200013080000c3a29d80d,
  0x4c20008f800000c7a29e024,
  0x4c32ca9654b28000000000000000000000000000010b785bc2dc00134400000000c54e9e80b,
  0x4c200096500000c5469f024,
  0x10b585b800216b0b785ac2de16a00000000002e200013080000c3a29f80d,
  0x4c200085c00000c3a6a0024,
  0x4c32ce9674b38000000000000000000000000000010cd866c33400134500000000c0329500b,
  0x4c200096700000c09695824,
  0x10cb86680021970cd865c33619600000000002e200013080000c03a9600d,
  0x4c200090180000c09696824,
  0x4c32d29694b48000000000000000000000000000010d586ac35400134600000000c0329700b,
  0x4c200096900000c09697824,
  0x10d386a80021a70d5869c3561a600000000002e200013080000c03a9800d,
  0x4c286d436c360000000000000000000000000000010d786bc35c000f3e00000000c0329880b,
  0x86f31e00010de63c43798f10de00000000002e200086c80000c03a9900d,
  0x86f32080010de64143799050de00000000002e200086c80000c03a9980d,
  0xad40ca80015a819556a06555a800000000002e200086c80000c03a9a00d,
  0x4c286d436c360000000000000000000000000000010d786bc35c00086a00000000c0329a80b,
  0x4c32da96d4b68000000000000000000000000000010dd86ec37400134700000000c0329c80b,
  0x4c200096d00000c0969d024,
  0x10db86e80021b70dd86dc3761b600000000002e200013080000c03a9d80d,
  0x4c200090a00000c0969e024,
  0x4c32de96f4b78000000000000000000000000000010e7873c39c00134800000000c0329e80b,
  0x4c200096f00000c0969f024,
  0x10e587380021cb0e7872c39e1ca00000000002e200013080000c03a9f80d,
  0x4c200087400000c096a0024,
  0x4d2c0000000000000000000000000000134a9a54d2800134900000003d8ac0062a,
  0x12c09604b4d380000000000000000000000000000134d9a6cd3400134c00000003d8b00662b,
  0x9804c000013009804c026013000000000000980009a780003d8b40762c,
  0x9804c000013009804c026013000000000000980009a800003d8b80762d,
  0x9a880003d8bc0062e,
  0x1ec600000000000000000000000000000000000000000000000003d8c00062f,
  0x48c40000000000000000000000000000123091848c000122f00000003d8c400630,
  0x48ac0013520000000000000000000000000000000003d8c800631,
  0x87f43f800000000000021fa00087e00003d8cc00632,
  0x48a800000000000000000000000000001229914c8a400122800000003d8d000633,
  0x87f43f800000000000021fa00087e00003d8d400634,
  0x91b48d800000000000000000009a980003d8d800635,
  0x1b10000000000000000091b48d800000000000000000009a980003d8dc00636,
  0x48980013540000000000000000000000000000000003d8e000637,
  0x882c41400000000000021f400088200003d8e400638,
  0x882c41400000000000021f400088200003d8e800639,
  0x97a00003d8ec0063a,
  0x26ad3569ab4d5a6ac00000000026aa00000000003d8f00063b,
  0x12ed976cbb400000000000003d8f40063c,
  0x3dcc000000000000000000000000000013579abcd5c000f7100000003d8f80063d,
  0x119200000000000000000000000000000000000000000000000003d8fef4e3e,
  0x167400000000000000000000000000000000000000000000000003d9000063f,
  0x9ac00003d9069b640,
  0x9adcd6c00000000000026b40009ac80003d90af8e41,
  0x135c9ae4d7000000000000003d90e9c642,
  0x12c00097e80003d911a0643,
  0x9804c00026bd35e9af4d7a6bc00000000026ba00004b00003d915a0e44,
  0x12c09604b02580000000000000000000000000000112d896c4b400009e00000003d919a1645,
  0x12c09604b2d640000000000000000000000000000135f9afcd7c000b5700000003d91da1e46,
  0x12c09604b2d64000000000000000000000000000013609b04d80000b5700000003d921a2647,
  0x4be8000000000000000000000000000013619b0cd840012f800000003d926a1648,
  0x12c1cf0e7c4c40000000000000000000000000000113089844c000091a00000003d92887649,
  0xf203d00001e407a07901e81e4000000000009800089900003d92c1864a,
  0x1cd04c000039a0980e6826039a000000000009800089900003d9301864b,
  0xe000092500002c7a2cf9e7,
  0xe000092700002c7a2d01e7,
  0xe000092b00002c7a2d31e7,
  0xe000092d00002c7a2d39e7,
  0x12c000000000000000000000000000000000000000000000000001a00326e4c,
  0x49a40000000000000000000000000000126893449a000126700000001a0032764d,
  0x98600001a00327e4e,
  0x26c73639b1cd8e6c600000000026c400000000001a0032864f,
  0x130d986cc3400000000000001a00328e50,
  0x933499800000000000000000009b200001a00329651,
  0x1c1c0000000000000000933499800000000000000000009b200001a00329e52,
  0x3814000000000000000000000000000013659b2cd94000e0300000001a0032a653,
  0x49880013660000000000000000000000000000000001a0032ae54,
  0x8af457800000000000022b60008ae80001a0032b655,
  0x8af457800000000000022b60008ae80001a0032be56,
  0x133200000000000000000000000000000000000000000000000003d93726e4c,
  0x49d80000000000000000000000000000127593ac9d400127400000003d93b2764d,
  0x98b80003d93f27e4e,
  0x26d13689b44da26d000000000026ce00000000003d9432864f,
  0x131898c4c6000000000000003d94728e50,
  0x939c9cc00000000000000000009b480003d94b29651,
  0x1c5a0000000000000000939c9cc00000000000000000009b480003d94f29e52,
  0x38900000000000000000000000000000136a9b54da8000e2200000003d9532a653,
  0x49bc00136b0000000000000000000000000000000003d9572ae54,
  0x8b4c5a400000000000022cc0008b400003d95b2b655,
  0x8b4c5a400000000000022cc0008b400003d95f2be56,
  0xaac00093c0002bd67ecfd9e,
  0x17c000093e0003fd682d059f,
  0xaac0009420002bd69ad35a5,
  0x17c00009440003fd69ed3da6,
  0x4c2261130cdb80000000000000000000000000000136d9b6cdb400136c00000000d8b00600b,
  0x1950ca800032a1950ca865432a00000000002e20009b780000d8b40700d,
  0x1950ca800032a1950ca865432a00000000002e20009b800000d8b80700d,
  0x4c200099380000d911a0024,
  0x1950ca80026e53729b94dca6e400000000026e200013080000d915a080d,
  0x4c22611308984000000000000000000000000000011ae8d746b800026d00000000d919a100b,
  0x4c2261130b268000000000000000000000000000013739b9cdcc000c9800000000d91da180b,
  0x4c2261130b268000000000000000000000000000013749ba4dd0000c9800000000d921a200b,
  0x4c227f13fc6c8000000000000000000000000000011b18d8c6c4000a6900000000d9288700b,
  0x17206000002e40c00b903002e400000000002e20008d980000d92c1800d,
  0x27d0ca80004fa19513e86544fa00000000002e20008d980000d9301800d,
  0x4c332d996ccb4000000000000000000000000000011b98dcc6e400137500000000d4aa9500b,
  0x4c200099680000d4ae95824,
  0x11b78dc800236f1b98dbc6e636e00000000002e200013080000d4b29600d,
  0x4c200094f80000d4b696824,
  0x4c3331998ccc4000000000000000000000000000011c18e0c70400137600000000d4ba9700b,
  0x4c200099880000d4be97824,
  0x11bf8e0800237f1c18dfc70637e00000000002e200013080000d4c29800d,
  0x4c2a825414710000000000000000000000000000011c38e1c70c00108800000000d4c69880b,
  0xa84419800150883354220cd50800000000002e20008e280000d4ca9900d,
  0xa8441c000150883854220e150800000000002e20008e280000d4ce9980d,
  0xcdf0ca80019be19566f86559be00000000002e20008e280000d4d29a00d,
  0x4c2a825414710000000000000000000000000000011c38e1c70c000a7f00000000d4d69a80b,
  0x4c333999ccce4000000000000000000000000000011c98e4c72400137700000000d4e69c80b,
  0x4c200099c80000d4ea9d024,
  0x11c78e4800238f1c98e3c72638e00000000002e200013080000d4ee9d80d,
  0x4c200095800000d4f29e024,
  0x4c333d99eccf4000000000000000000000000000011d38e9c74c00137800000000d4f69e80b,
  0x4c200099e80000d4fa9f024,
  0x11d18e980023a31d38e8c74e3a200000000002e200013080000d4fe9f80d,
  0x4c20008ea00000d502a0024,
  0x4c200095d00000c7a2cf824,
  0x4c200095f00000c7a2d0024,
  0x4c200096300000c7a2d3024,
  0x4c200096500000c7a2d3824,
  0x4c200096700000c096cf824,
  0x4c200096900000c096d0024,
  0x4c200096d00000c096d3024,
  0x4c200096f00000c096d3824,
  0x9bc80003d96000657,
  0x9be4df000000000000026f60009bd00003d96400658,
  0x137d9becdf400000000000003d96800659,
  0x12c0009a700003d96c12e5a,
  0x9804c00026ff37f9bfcdfe6fe00000000026fc00004b00003d9700765b,
  0x12c09604b02580000000000000000000000000000121f90fc87c00009e00000003d9740665c,
  0x12c09604b35c8000000000000000000000000000013809c04e00000d7000000003d9780665d,
  0x12c09604b35c8000000000000000000000000000013819c0ce04000d7000000003d97c0665e,
  0x4d2c000000000000000000000000000013829c14e0800134900000003d9800065f,
  0x162600000000000000000000000000000000000000000000000003d98400660,
  0x4bd0000000000000000000000000000012f3979cbcc0012f200000003d98800661,
  0x220200000000000000000000000000000000000000000000000003d98c00662,
  0x4bb40013830000000000000000000000000000000003d99000663,
  0x91b48d8000000000000245c00091a80003d99400664,
  0x91b48d8000000000000245c00091a80003d99800665,
  0x135c9ae4d7000000000000003d99ed0e66,
  0x4e18000000000000000000000000000013859c2ce1400138400000003d9a312667,
  0x270f3879c44e1e70f3889c3ce1e70e000000000000000000000003d9a712e68,
  0x9c480003d9ab13669,
  0x271400000000003d9aed2e6a,
  0x13012c000000000013009804c44b413138b04c0260130000000000000009e00000003d9b200e6b,
  0x9804c000013009892249101300000000001f660009c600003d9b60166c,
  0x9804c000013009892249101300000000001f660009c600003d9ba01e6d,
  0x9804c000013009892249101300000000001f660009c600003d9be0266e,
  0x9c74e3800000000000027140009c680003d9c2d4e6f,
  0x4c3400138f0000000000000000000000000000000001a00338e70,
  0x933499800000000000024ca00093200001a00339671,
  0x4c300000000000000000000000000000130b985cc2c00130a00000001a00339e72,
  0x933499800000000000024ca00093200001a0033a673,
  0x17a200000000000000000000000000000000000000000000000001a0033ae74,
  0x4c600013900000000000000000000000000000000003d9c738e70,
  0x939c9cc00000000000024e400093880003d9cb39671,
  0x4c5c0000000000000000000000000000131698b4c5800131500000003d9cf39e72,
  0x939c9cc00000000000024e400093880003d9d33a673,
  0x180200000000000000000000000000000000000000000000000003d9d73ae74,
  0x4c20009b700000d96c12824,
  0x1950ca80027253929c94e4a724000000000272200013080000d9700700d,
  0x4c226113089840000000000000000000000000000128c9464a3000026d00000000d9740600b,
  0x4c2261130b9d8000000000000000000000000000013939c9ce4c000e7400000000d9780600b,
  0x4c2261130b9d8000000000000000000000000000013949ca4e50000e7400000000d97c0600b,
  0x5c44c2000000000032a1950cac6b832b3950ca865432a000000000000026d00000000d9b200826,
  0x1950ca800032a19594b4a5832a00000000020de0009cb00000d9b60100d,
  0x1950ca800032a19594b4a5832a00000000020de0009cb00000d9ba0180d,
  0x1950ca800032a19594b4a5832a00000000020de0009cb00000d9be0200d,
  0x4c200099680000d67ecf824,
  0x4c200099880000d682d0024,
  0x4c200099c80000d69ad3024,
  0x4c200099e80000d69ed3824,
  0x137d9becdf400000000000003d9d800675,
  0x4e64000000000000000000000000000013989cc4e6000139700000003d9dc00676,
  0x273539a9cdce6a73539b9cd4e6a734000000000000000000000003d9e000677,
  0x9ce00003d9e400678,
  0x273a00000000003d9e800679,
  0x13012c000000000013009804c487c13139e04c0260130000000000000009e00000003d9ec13e7a,
  0x9804c00001300989724b9013000000000021e60009cf80003d9f00767b,
  0x9804c00001300989724b9013000000000021e60009cf80003d9f40767c,
  0x9804c00001300989724b9013000000000021e60009cf80003d9f80767d,
  0x9d0ce84000000000000273a0009d000003d9fc0067e,
  0x1b1000000000000000000000000000000000000000000000000003da000067f,
  0x9c300003da0727e80,
  0x27473a39d1ce8e746000000000274400000000003da0b28681,
  0x13879c3ce1c00000000000003da0f28e82,
  0x9adcd6c00000000000000000009d200003da1329683,
  0x225800000000000000009adcd6c00000000000000000009d200003da1729e84]

def splitStates10 : List Nat := [
  0x4be8000000000000000000000000000013a59d2ce940012f800000003da1b2a685,
  0x274d3a69d3ce9a74d3a79d34e9a74c000000000000000000000003da1ef8686,
  0x248a09804c000013009804c0260130000000000009800004b00003da2257687,
  0x12c09604b4bf4000000000000000000000000000012fc97e4bf00012fb00000003da2657e88,
  0x4ea8000000000000000000000000000013a99d4cea40013a800000003da2af9689,
  0x9d580003da2ef9e8a,
  0x1c1c00000000000000000000000000000000000000000000000001a0034668b,
  0x1c5a00000000000000000000000000000000000000000000000003da334668b,
  0x5c44c2000000000032a1950caca3032b3ac0ca865432a000000000000026d00000000d9ec13826,
  0x1950ca800032a195991cc8c32a00000000023200009d680000d9f00700d,
  0x1950ca800032a195991cc8c32a00000000023200009d680000d9f40700d,
  0x1950ca800032a195991cc8c32a00000000023200009d680000d9f80700d,
  0x252e1950ca800032a1950ca865432a00000000002e200013080000da2257041,
  0x4c2261130cc9c000000000000000000000000000013269934c9800132500000000da265780b,
  0x9cc80003da340068c,
  0x275f3af9d7cebe75e000000000275c00000000003da380068d,
  0x139a9cd4e6800000000000003da3c0068e,
  0x9be4df000000000000000000009d800003da400068f,
  0x243c00000000000000009be4df000000000000000000009d800003da4400690,
  0x4d2c000000000000000000000000000013b19d8cec400134900000003da4800691,
  0x27653b29d9ceca7653b39d94eca764000000000000000000000003da4c00692,
  0x25ca09804c000013009804c0260130000000000009800004b00003da5021693,
  0x12c09604b4d380000000000000000000000000000134d9a6cd3400134c00000003da5406694,
  0x4ed8000000000000000000000000000013b59daced40013b400000003da5800695,
  0x9db80003da5c00696,
  0x4e1c0013b80000000000000000000000000000000003da6338e97,
  0x9adcd6c00000000000026b40009ac80003da6739698,
  0x4e18000000000000000000000000000013859c2ce1400138400000003da6b39e99,
  0x9adcd6c00000000000026b40009ac80003da6f3a69a,
  0x9c74e3800000000000000000009dc80003da731169b,
  0x248c00000000000000009c74e3800000000000000000009dc80003da7711e9c,
  0x9d500003da7b13e9d,
  0x27773bb9ddceee776000000000277400000000003da7f1469e,
  0x13a69d34e9800000000000003da8314e9f,
  0x4be8000000000000000000000000000013bc9de4ef00012f800000003da87156a0,
  0x26481950ca800032a1950ca865432a00000000002e200013080000da5021041,
  0x4c2261130cdb80000000000000000000000000000136d9b6cdb400136c00000000da540600b,
  0x4e680013bd0000000000000000000000000000000003da88006a1,
  0x9be4df000000000000026f60009bd00003da8c006a2,
  0x4e64000000000000000000000000000013989cc4e6000139700000003da90006a3,
  0x9be4df000000000000026f60009bd00003da94006a4,
  0x9d0ce8400000000000000000009df00003da98006a5,
  0x25cc00000000000000009d0ce8400000000000000000009df00003da9c006a6,
  0x9db00003daa0006a7,
  0x27813c09e04f02780000000000277e00000000003daa4006a8,
  0x13b29d94ec800000000000003daa8006a9,
  0x4d2c000000000000000000000000000013c19e0cf0400134900000003daac006aa,
  0x225800000000000000000000000000000000000000000000000003dab3466ab,
  0x4ea8000000000000000000000000000013a99d4cea40013a800000003dab7276ac,
  0x4e980013c20000000000000000000000000000000003dabb2aead,
  0x9c74e3800000000000027140009c680003dabf2b6ae,
  0x9c74e3800000000000027140009c680003dac32beaf,
  0x243c00000000000000000000000000000000000000000000000003dac4006b0,
  0x4ed8000000000000000000000000000013b59daced40013b400000003dac8006b1,
  0x4ec80013c30000000000000000000000000000000003dacc006b2,
  0x9d0ce84000000000000273a0009d000003dad0006b3,
  0x9d0ce84000000000000273a0009d000003dad4006b4,
  0x248c00000000000000000000000000000000000000000000000003dadb3aeb5,
  0x25cc00000000000000000000000000000000000000000000000003dadc006b6]

/-- The states that are reached. -/
def splitStates : List Nat :=
  splitStates0 ++ splitStates1 ++ splitStates2 ++ splitStates3 ++ splitStates4 ++ splitStates5 ++ splitStates6 ++ splitStates7 ++ splitStates8 ++ splitStates9 ++ splitStates10

end Jbo.Morf
