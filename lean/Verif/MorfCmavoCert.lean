import Verif.MorfFe
/-!
# States of the cmavo automaton

The states that the automaton of `MorfCmavo` reaches, with their successors; the kernel checks them.
-/

namespace Jbo.Morf
set_option maxRecDepth 100000

def cmavoStates0 : List Nat := [
  0x28020020018000010000000000,
  0x60058050048000000000000000000000000000040038038000030000000001001,
  0x78000000000000000000000000000000000000000070070070000068000002001802,
  0xa00a0000090090098098090000000000088000080001002003,
  0xa00a00000900900b00a8090000000000088000080001002804,
  0x60000048000003005,
  0xe00d80000b80d00c80c00b8000000000088000080001002006,
  0xe00d80000b80d00f00e80b8000000000088000080001002807,
  0x601081081000000000000000000000000000000400380380000f8000000004808,
  0x60108108108000000000000000000000000000120118118000110000000005009,
  0x6010810810800000000000000000000000000012812812800011000000000580a,
  0x6013813813800000000000000000000000000007007007000013000000200600b,
  0x14000000000000680c,
  0x158158000158158158158158000000000150000148001c0000d,
  0x7800000000000000000000000000000000000000000000000000000000000200780e,
  0x6018018017800000000000000000000000000017016816800016000000000800f,
  0x198060000000000188188188188188190188188188000000000000130000002008810,
  0xa00a00000a00a01b01b00a00000000001a80001a0005009011,
  0xa00a00000a00a01b01b00a00000000001a80001b8005009812,
  0xa00a00000a00a00a00a00a00000000001a80001c000500700d,
  0xa00a00000a00a01d81d00a00000000001a80001c800500a013,
  0xa00a00000a00a01b01b00a00000000001a80001c800500a814,
  0xe01f80000e01f81f01e80e00000000001a80001e0005009015,
  0xe02100000e02101f02080e00000000001a8000200005009816,
  0xe01f80000e01f81f01e80e00000000001a8000200005009817,
  0xe02100000e02101f02080e00000000001a80001e0005009018,
  0xe02100000e02100e02100e00000000001a8000218005007019,
  0xe01f80000e01f80e01f80e00000000001a800021800500701a,
  0xe02100000e02102302280e00000000001a800022000500a01b,
  0xe01f80000e01f81f01e80e00000000001a800022000500a81c,
  0x6000010000000f01d,
  0x6013813824000000000000000000000000000004003803800023800000000f81e,
  0x6013813813800000000000000000000000000012812812800013000000001001f,
  0x60000108000010820,
  0xe00d80000b80d00c80c00b8000000000248000080001002021,
  0xe00d80000b80d00f00e80b8000000000248000080001002822,
  0x250258000250258250258250000000000150000148001c00023,
  0x60000138000012824,
  0x6013813813800000000000000000000000000007007007000013000000000600b,
  0x2013025,
  0x268148148148000000000000000000000000000070070070000260000000c0000b,
  0x150268000000000158158158158158270158158158000000000000260000002c00026,
  0x158158000158158158158158000000000280000278005c0000d,
  0x60000288000014027,
  0x2c02b80002982b02a82a0298000000000290000080001002028,
  0x2c02b80002982b02d02c8298000000000290000080001002829,
  0x601381382400000000000000000000000000002e82e02d800023800000001582a,
  0x601381381380000000000000000000000000003002f82f000013000000001602b,
  0x15815800015815815815815800000000030800027800540002c,
  0x15815815800015815815815815800000000030800027800540002d,
  0x198060000000000158158158158158270158158158000000000000130000002013826,
  0x3281c01c032000000000000000000000000000031831831800031000000401782e,
  0x1a8328000000000158158158158158270158158158000000000000330000006013826,
  0xa00a00000a00a00a00a00a00000000001a800033800501802f,
  0x3281c01c0320000000000000000000000000000340340340000310000004018830,
  0x3281c01c01c00000000000000000000000000000a00a00a000033000000400600b,
  0x328360360358000000000000000000000000000350350350000348000004019031,
  0xa00a00000a00a03700a00a00000000001a8000368005019832,
  0xa00a00000a00a03780a00a00000000001a800036800501a033,
  0x328398398390000000000000000000000000000388388388000380000004017834,
  0xe00d80000e00d80e00d80e00000000001a80003a0005018035,
  0xe01f80000e01f80e01f80e00000000001a80003a0005018036,
  0xe00d80000e00d80e00d80e00000000001a8000218005007037,
  0x3283983983900000000000000000000000000003a83a83a8000380000004018838,
  0x3b00a00003b00a03b00a03b00000000001a80003a0005018039,
  0x3b00a00003b00a03b00a03b00000000001a800021800500703a,
  0x3283983983980000000000000000000000000001f81f81f80003b800000400603b,
  0x3283d83d83d00000000000000000000000000003c83c83c80003c000000401903c,
  0x3b00a00003b00a03e80a03b00000000001a80003e000501983d,
  0xe01f80000e01f83f01f80e00000000001a80003e000501a03e,
  0x6000024000002003f,
  0x60138138240000000000000000000000000000028020020000238000000020840,
  0x1980600000000003f83f83f83f83f84003f83f83f8000000000000130000002008826,
  0x250410000250410250410250000000000280000408005c0001a,
  0x250418000250418250418250000000000280000408005c00019,
  0x268000148000c00024,
  0x268148148148000000000000000000000000000070070070000260000002c0000b,
  0x158158158000158158158158158000000000280000278005c00041,
  0x428278278278000000000000000000000000000158158158000420000004c0000b,
  0x280428000000000158158158158158270158158158000000000000420000006c00026,
  0x60138138240000000000000000000000000000440438430000238000000021842,
  0x198060000000000188188188458188450448448188000000000000130000002008843,
  0x498490000470488480478470000000000468000460005009044,
  0x4704b80004704b84b04a84700000000004680004a0005009845,
  0x4984900004704884b04c04700000000004680004a0005009846,
  0x4704b80004704b84804c8470000000000468000460005009047,
  0x4d84b80004d84b84d84b84d80000000001a80004d0005007048,
  0x4e04900004d84884d84884d80000000001a80004d0005007049,
  0x4704b80004704b84f84f04700000000004680004e800500a04a,
  0x4984900004704884b04c04700000000004680004e800500a84b,
  0x4d82b800052051851050850000000000008800008000100204c,
  0x4d82b800054854053853052800000000008800008000100204d,
  0x4d82b800054854055855054800000000008800008000100284e,
  0x588580000560578570568560000000000150000148001c0004f,
  0x5885800005885805a0598590000000000150000148001c00050,
  0x5885800005885805a0598588000000000150000148001c00051,
  0x280428000000000188188188188188190188188188000000000000420000006800010,
  0x328000320004029852,
  0xa00a00005b05b05b05b05b00000000005a80001c000502a053,
  0x3281c01c01c00000000000000000000000000005b85b85b800033000000402a854,
  0x3281c01c01c000000000000000000000000000015815815800033000000600600b,
  0x3280001c0004012824,
  0x3281c01c01c00000000000000000000000000005c05c05c000033000000402b055,
  0xa00a00005b05b05d05d05b00000000005a80005c800502b856,
  0x3280005d800402c057,
  0x6186100005f06086005f85f00000000005e80005e000502c858,
  0x32863063063000000000000000000000000000062862862800062000000402d059,
  0x32863063063000000000000000000000000000063863863800062000000402d85a,
  0x32836036036000000000000000000000000000064864864800064000000402e05b,
  0xa00a00000a00a03780a00a00000000001a80001c000502e85c,
  0xa00a00000a00a00a00a00a00000000001a800065000502f05d,
  0x32800065800402985e,
  0xe00d80006606686606686600000000005a800021800502a05f,
  0x32868068068000000000000000000000000000067867867800067000000402a860,
  0x3286806806800000000000000000000000000001f81f81f8000670000004006061,
  0x3283983983980000000000000000000000000006886886880003b800000402b062,
  0xe00d80006606686a06986600000000005a800069000502b863,
  0xe01f80000e01f80e01f80e00000000001a80001c0005007064,
  0x328000680004012865,
  0x3280006a800402c066,
  0x6e06d80006b86d06c86c06b80000000005e80006b000502c867,
  0x3286f86f86f80000000000000000000000000006f06f06f00006e800000402d068,
  0x3286f86f86f80000000000000000000000000007007007000006e800000402d869,
  0x3283d83d83d800000000000000000000000000071071071000070800000402e06a,
  0xe01f80000e01f83f01f80e00000000001a80001c000502e86b,
  0xe01f80000e01f80e01f80e00000000001a800071800502f06c,
  0x15815800015815815815815800000000072000027800540000d,
  0x158158158000158158158158158000000000720000278005400041,
  0x428730730730000000000000000000000000000410410410000728000004c0003b,
  0x250258000250258250258250000000000280000408005c00037,
  0x738158000738158738158738000000000280000408005c0003a,
  0x428000278004c00024,
  0x428278278278000000000000000000000000000158158158000420000006c0000b,
  0x4d82b800052051874874050000000000008800008000100206d,
  0x4d82b800054854075875052800000000008800008000100206e,
  0x4d82b800054854076876054800000000008800008000100286f,
  0x158158000158158778778158000000000308000770005400070,
  0x780158158000158158158158158000000000308000278005400071,
  0x158158000158158790790158000000000308000788005400072,
  0x3287b07b07a80000000000000000000000000007a07a07a0000798000004017873,
  0x1a83280000000007b87b87c87b87b87c07b87b87b8000000000000330000006013874,
  0x7d87d00004d84884d84884d80000000001a80004d0005007075,
  0x4d82b80004d82b84d82b84d80000000001a80007e0005018076,
  0x7d87d00004d84884d84884d80000000001a80007e0005018077,
  0x4d82b80004d82b84d82b84d80000000001a80004d0005007078,
  0x7f07f80007f07f87f07f87f00000000001a80007e8005007079,
  0x8108080007f08007f08007f00000000001a80007e800500707a,
  0x3287b07b082000000000000000000000000000081881881800079800000401887b,
  0x8300a00008300a08300a08300000000001a800082800501807c,
  0x7d87d00004d84884d84884d80000000001a800082800501807d,
  0x8300a00008300a08300a08300000000001a80004d000500707e,
  0x4d82b80004d82b84d82b84d80000000001a800082800501807f,
  0x8300a00008300a08300a08300000000001a80007e0005018080,
  0x328840840840000000000000000000000000000488488488000838000004006081,
  0x4d84880004d84884d84884d80000000001a80004d0005007082,
  0x7f08000007f08007f08007f00000000001a80007e8005007083,
  0x328860860858000000000000000000000000000850850850000848000004019084,
  0x8300a00008300a08700a08300000000001a8000868005019885,
  0x7d87d00004d84888784884d80000000001a800086800501a086,
  0x4d84880004d84888908884d80000000001a8000880005009087,
  0x4d84b80004d84b88908a04d80000000001a8000898005009888,
  0x4d84880004d84888908884d80000000001a8000898005009889,
  0x4d84b80004d84b88b88b04d80000000001a80008a800500908a,
  0x4d84880004d84888b88c04d80000000001a80008a800500908b,
  0x4d84880004d84888d88d04d80000000001a80008c800500908c,
  0x4d84b80004d84b88f08e84d80000000001a80008e000500988d,
  0x4d84880004d84888f08f84d80000000001a80008e000500988e,
  0x4d84b80004d84b88f08e84d80000000001a800090000500908f,
  0x4d84880004d84888f08f84d80000000001a8000900005009090,
  0x4d84b80004d84b89189104d80000000001a800090800500a091,
  0x4d84880004d84888f08f84d80000000001a800090800500a892,
  0x588938000588938930928588000000000280000920005c00093,
  0x588950000588950930948588000000000280000940005c00094,
  0x588938000588938930928588000000000280000940005c00095,
  0x588950000588950930948588000000000280000920005c00096,
  0x588950000588950588950588000000000280000958005c00048,
  0x588938000588938588938588000000000280000958005c00082,
  0x588938000588938588938588000000000280000960005c00097,
  0x588950000588950588950588000000000280000968005c00098,
  0x588938000588938588938588000000000280000968005c00099,
  0x1a832800000000015815815897815897015815815800000000000033000000604d89a,
  0xa00a00000a00a01b01b00a000000000098800098000504e09b,
  0xa00a00000a00a01b01b00a00000000001a80001a000504e89c,
  0xa00a00000a00a01b01b00a000000000098800098000504f09d,
  0x3289a89a89a000000000000000000000000000099899899800099000000404f89e,
  0xa00a00000a00a01b01b00a00000000009880009b000505009f,
  0x3286306306300000000000000000000000000006286286280009b80000040508a0,
  0x3289d89d89d00000000000000000000000000009c89c89c80009c00000040510a1,
  0x1a83280000000001581581589f09e09e89e09e09e00000000000003300000060518a2,
  0xa20a18000a00638a10a08a000000000009880009f80050520a3,
  0xa00a38000a00a38a10a30a00000000000988000a280050528a4,
  0xa20a18000a00638a10a08a00000000000988000a280050530a5,
  0xa00a38000a00a38a10a30a000000000009880009f80050538a6,
  0xa00a38000a00a38a00a38a000000000001a8000a400050540a7,
  0xa20a18000a00638a00638a000000000001a8000a400050548a8,
  0x3280006300040550a9,
  0xa00610000a00610a10a58a00000000000a50000a480050558aa,
  0x3286306306300000000000000000000000000006386386380009b80000040560ab,
  0xa00610000a00610a00610a000000000001a8000a400050568ac,
  0x3280006300040570ad,
  0xa00610000a00610a10a58a000000000009880009f80050578ae,
  0x3283603603600000000000000000000000000006386386380006400000040580af,
  0x328680680680000000000000000000000000000678678678000a6000000402a8b0,
  0xe01f80000e01f81f01e80e0000000000988000a6800504e0b1,
  0xe02100000e02101f02080e0000000000988000a6800504e0b2,
  0x3280006800040128b3,
  0xe00d80000e00d81f0a700e00000000001a80001e000504e8b4,
  0x3286806806800000000000000000000000000001f81f81f8000a600000040060b5,
  0xe00d80000e00d81f0a700e0000000000988000a6800504f0b6,
  0x328a90a90a88000000000000000000000000000a80a80a80000a7800000404f8b7,
  0xe02100000e02101f02080e0000000000988000a980050500b8,
  0xe01f80000e01f81f01e80e0000000000988000a980050500b9,
  0x3286f86f86f80000000000000000000000000006f06f06f0000aa00000040508ba,
  0x328ac0ac0ab8000000000000000000000000000ab0ab0ab0000aa80000040510bb,
  0xaf0ae8000ad0700ae0ad8ad0000000000988000ac80050520bc,
  0xad0b08000ad0b08ae0b00ad0000000000988000af80050528bd,
  0xaf0ae8000ad0700ae0ad8ad0000000000988000af80050530be,
  0xad0b08000ad0b08ae0b00ad0000000000988000ac80050538bf,
  0xad0b08000ad0b08ad0b08ad00000000001a8000b100050540c0,
  0xaf0ae8000ad0700ad0700ad00000000001a8000b100050548c1,
  0x3280006f80040550c2,
  0xad06d8000ad06d8ae0b20ad0000000000a50000b180050558c3,
  0x3286f86f86f8000000000000000000000000000700700700000aa00000040560c4,
  0xad06d8000ad06d8ad06d8ad00000000001a8000b100050568c5,
  0x3280006f80040570c6,
  0xad06d8000ad06d8ae0b20ad0000000000988000ac80050578c7,
  0x3283d83d83d80000000000000000000000000007007007000007080000040580c8,
  0x2804280000000003f83f83f83f83f84003f83f83f8000000000000420000006800026,
  0x428000b28004c00065,
  0x428b28b28b28000000000000000000000000000410410410000b30000004c00061,
  0x250410000250410250410250000000000280000278005c00064,
  0x4d84b80004d84b88908a04d80000000001a80008980050098c9,
  0x4d84880004d84888908884d80000000001a80008980050098ca,
  0x4d84b80004d84b88f08e84d80000000001a80008e00050098cb,
  0x4d84880004d84888f08f84d80000000001a80008e00050098cc,
  0x4d84b80004d84b89189104d80000000001a800090800500a0cd,
  0x4d84880004d84888f08f84d80000000001a800090800500a8ce,
  0x428278278b48000000000000000000000000000b40b40b40000b38000004c000cf,
  0x158158000158158158158158000000000280000b50005c000d0,
  0x158158000158158158158158000000000280000b58005c000d1,
  0x428278278b70000000000000000000000000000b68b68b68000b60000004c000d2,
  0x158158000158158158158158000000000280000b78005c000d3,
  0x328000b800040298d4,
  0xba02b8000b90b98b90b98b90000000000b880004d000502a0d5,
  0x328bb8bb8bb8000000000000000000000000000bb0bb0bb0000ba800000402a8d6,
  0x328bb8bb8bb8000000000000000000000000000bc0bc0bc0000ba80000040060d7,
  0x158158000158158790790158000000000280000788005c000d8,
  0x780158158000158158790790158000000000280000788005c000d9,
  0xbc8158158000158158790790158000000000280000788005c000da,
  0xbd8be0000bd8be0bd8be0bd80000000001a8000bd00050070db,
  0xbd8be8000bd8be8bd8be8bd80000000001a8000bd00050070dc,
  0x328840840c00000000000000000000000000000bf8bf8bf8000bf000000402b0dd,
  0x328c10c10c10000000000000000000000000000800800800000c080000040060de,
  0x7f08000007f08007f08007f00000000001a80007e80050070df,
  0x7f0c180007f0c187f0c187f00000000001a80007e80050070e0,
  0x7f07f80007f07f87f07f87f00000000001a80007e80050070e1,
  0xc28c30000c28c30c28c30c280000000001a8000c200050070e2,
  0xc28c38000c28c38c28c38c280000000001a8000c200050070e3,
  0x4d82b8000c48c60c58c50c48000000000b88000c4000502b8e4,
  0x328bb8bb8bb8000000000000000000000000000c68c68c68000ba800000402a8e5,
  0x328840840c00000000000000000000000000000c70c70c70000bf000000402b0e6,
  0x4d84880004d84884d84884d80000000001a80001c00050070e7,
  0x328000bb80040128e8,
  0x328bb8bb8bb8000000000000000000000000000488488488000ba80000040060e9,
  0x328000c7800402c0ea,
  0xcb8cb0000c90ca8ca0c98c90000000000c88000c8000502c8eb,
  0x328cd0cd0cd0000000000000000000000000000cc8cc8cc8000cc000000402d0ec,
  0x328cd0cd0cd0000000000000000000000000000cd8cd8cd8000cc000000402d8ed,
  0x328cf8cf8cf0000000000000000000000000000ce8ce8ce8000ce000000402e0ee,
  0x4d84880004d84888784884d80000000001a80001c000502e8ef,
  0x4d84880004d84884d84884d80000000001a8000d0000502f0f0,
  0x3287b07b0d18000000000000000000000000000d10d10d10000d080000040178f1,
  0x4d82b80004d82b84d82b84d80000000001a8000d200050180f2,
  0x4d84880004d84884d84884d80000000001a8000d200050180f3,
  0x3287b07b0d18000000000000000000000000000d28d28d28000d080000040188f4,
  0x8300a00008300a08300a08300000000001a8000d200050180f5,
  0x3287b07b07a8000000000000000000000000000d38d38d38000d300000040178f6,
  0x8300a00008300a08300a08300000000001a8000d400050180f7,
  0x4d84880004d84884d84884d80000000001a8000d400050180f8,
  0x4d82b80004d82b84d82b84d80000000001a8000d400050180f9,
  0x3287b07b07a8000000000000000000000000000d38d38d38000d480000040178fa,
  0x4d82b80004d82b84d82b84d80000000001a8000d500050180fb,
  0x4d84880004d84884d84884d80000000001a8000d500050180fc,
  0x328840840d68000000000000000000000000000d60d60d60000d580000040188fd,
  0x8300a00008300a08300a08300000000001a8000d700050180fe,
  0x4d84880004d84884d84884d80000000001a8000d700050180ff,
  0x4d82b80004d82b84d82b84d80000000001a8000d70005018100,
  0x328840840d68000000000000000000000000000d78d78d78000d58000004017901,
  0x328cf8cf8d90000000000000000000000000000d88d88d88000d80000004019102,
  0x8300a00008300a08700a08300000000001a8000d98005019903,
  0x4d84880004d84888784884d80000000001a8000d9800501a104,
  0x428db0db0db0000000000000000000000000000da8da8da8000da0000004c00105,
  0x588580000588580588580588000000000280000db8005c00106,
  0x588938000588938588938588000000000280000db8005c00107,
  0x588580000588580588580588000000000280000958005c00078,
  0x428db0db0db0000000000000000000000000000da8da8da8000da0000004c00108,
  0xdc0158000dc0158dc0158dc0000000000280000db8005c00109,
  0xdc0158000dc0158dc0158dc0000000000280000958005c0007e,
  0x428dd0dd0dd0000000000000000000000000000938938938000dc8000004c00081,
  0x428db0db0db0000000000000000000000000000da8da8da8000dd8000004c0010a,
  0x428dd0dd0dd0000000000000000000000000000938938938000dc8000004c0010b,
  0xde0158158000158158158158158000000000280000278005c0010c,
  0x158158000158158df0df0158000000000280000de8005c0009c,
  0x3281c01c032000000000000000000000000000031831831800031000000408710d,
  0x1a8328000000000978978e00978978df897897897800000000000033000000608790e,
  0x3280009a800408810f,
  0xe180a0000e08e10e08e10e080000000001a80001c0005088910,
  0x3281c01c01c0000000000000000000000000000e20e20e20000330000004089111,
  0x3281c01c01c0000000000000000000000000000e28e28e28000330000004089912,
  0x3281c01c0320000000000000000000000000000e30e30e3000031000000408a113,
  0x32800063000408a914,
  0x328000e3800408b115,
  0xe58610000e48e50e48e50e48000000000e40000a4000508b916,
  0x328e70e70e70000000000000000000000000000e68e68e68000e6000000408c117,
  0x328e70e70e70000000000000000000000000000e78e78e78000e6000000408c918,
  0x158158000158158e88e88158000000000280000e80005c00119,
  0xe90158158000158158e88e88158000000000280000e80005c0011a,
  0x158158000158158ea0ea0158000000000280000e98005c0011b,
  0x328ec0ec0eb8000000000000000000000000000eb0eb0eb0000ea800000408e91c,
  0xa00638000a00638a00638a000000000001a8000a4000508f11d,
  0xa00610000a00610a00610a000000000001a8000ec800508f91e,
  0xa00638000a00638a00638a000000000001a8000ec800509011f,
  0xed8ee0000ed8ee0ed8ee0ed80000000001a8000ed0005090920,
  0xed8ee8000ed8ee8ed8ee8ed80000000001a8000ed0005091121,
  0x328ec0ec0f00000000000000000000000000000ef8ef8ef8000ef0000004091922,
  0xf080a0000f080a0f080a0f080000000001a8000ec8005092123,
  0xf080a0000f080a0f080a0f080000000001a8000a40005092924,
  0x328ec0ec0ec0000000000000000000000000000638638638000f10000004093125,
  0x328ec0ec0eb8000000000000000000000000000eb0eb0eb0000ea8000004093926,
  0x1a8328000000000158158158f18f18f20f18f18f18000000000000330000006094127,
  0xa00a38000a00a38a00a38a000000000001a8000ec8005094928,
  0x328000680004012929,
  0x32839839839000000000000000000000000000038838838800038000000408712a,
  0xe02100000e02100e02100e00000000001a80003a000501812b,
  0x328000f2800408812c,
  0xf400d8000f30f38f30f38f300000000001a800021800508892d,
  0x328680680680000000000000000000000000000f48f48f4800067000000408912e,
  0x328680680680000000000000000000000000000f50f50f5000067000000408992f,
  0x328398398390000000000000000000000000000f58f58f5800038000000408a130,
  0x3280006f800408a931,
  0x328000f6000408b132,
  0xf786d8000f68f70f68f70f68000000000e40000b1000508b933,
  0x328f90f90f90000000000000000000000000000f88f88f88000f8000000408c134,
  0x328f90f90f90000000000000000000000000000f98f98f98000f8000000408c935,
  0x328fb8fb8fb0000000000000000000000000000fa8fa8fa8000fa000000408e936,
  0xad0700000ad0700ad0700ad00000000001a8000b1000508f137,
  0xad06d8000ad06d8ad06d8ad00000000001a8000fc000508f938,
  0xad0700000ad0700ad0700ad00000000001a8000fc0005090139,
  0xfd0fd8000fd0fd8fd0fd8fd00000000001a8000fc800509093a,
  0xfd0fe0000fd0fe0fd0fe0fd00000000001a8000fc800509113b,
  0x328fb8fb8ff8000000000000000000000000000ff0ff0ff0000fe800000409193c,
  0x10000a00010000a10000a10000000000001a8000fc000509213d,
  0x10000a00010000a10000a10000000000001a8000b1000509293e,
  0x328fb8fb8fb800000000000000000000000000070070070000100800000409313f,
  0x328fb8fb8fb0000000000000000000000000000fa8fa8fa8000fa0000004093940,
  0xad0b08000ad0b08ad0b08ad00000000001a8000fc0005094941,
  0x428b28b28b28000000000000000000000000000410410410001010000004c000b5,
  0x428000b28004c000b3,
  0x428001018004c00142,
  0x158158001031031039039030000000001028001020005c00143,
  0x428278278278000000000000000000000000001041041040000420000004c00144,
  0x428278279058000000000000000000000000001051051050001048000004c00145,
  0x428278279070000000000000000000000000001069069068001060000004c00146,
  0x428000b70004c00147,
  0x158158001081081081081080000000001078000278005c00148,
  0x428278278278000000000000000000000000001089089088000420000004c00149,
  0x428278279070000000000000000000000000001091091090001060000004c0014a,
  0x328bb8bb8bb8000000000000000000000000000c68c68c6800109800000402a94b,
  0x1a83280000000001581581590a81590a015815815800000000000033000000604d94c,
  0x10d90d00010c04890c84790c00000000010b80010b000504e14d,
  0x10c04b80010c04b90c84c90c00000000010b80010b000504e14e,
  0x10e10d00004d84884d84884d80000000001a80004d000500714f,
  0x328000bb8004012950,
  0x4d82b80004d82b90f90f04d80000000001a80010e800504e951,
  0x328bb8bb8bb8000000000000000000000000000488488488001098000004006152,
  0x4d82b80004d82b91111084d80000000001a8001100005007153,
  0x1118005c00154,
  0x329129129128000000000000000000000000000be8be8be8001120000004006155,
  0xbd8be8000bd8be8bd8be8bd80000000001a8000bd0005007156,
  0xbd9130000bd9130bd9130bd80000000001a8000bd0005007157,
  0xbd8be0000bd8be0bd8be0bd80000000001a8000bd0005007158,
  0x328001138004012959,
  0x10c02b80010c02b91490f10c00000000010b800114000504f15a,
  0x328bb8bb8bb8000000000000000000000000001151151150000ba800000400615b,
  0x32800115800401295c,
  0x32915915915800000000000000000000000000080080080000116000000400615d,
  0x11680a00011680a11680a11680000000001a80007e800500715e,
  0x329179179178000000000000000000000000000c38c38c3800117000000400615f,
  0xc28c38000c28c38c28c38c280000000001a8000c20005007160,
  0xc29180000c29180c29180c280000000001a8000c20005007161,
  0xc28c30000c28c30c28c30c280000000001a8000c20005007162,
  0x3291a11a119800000000000000000000000000119119119000118800000404f963,
  0x4d84880004d84891b04c04d80000000010b80011a800504e164,
  0x4d84b80004d84b91b04a84d80000000010b80011b8005050165,
  0x4d84880004d84891b04c04d80000000010b80011b8005050166,
  0x4d84b80004d84b91b04a84d80000000010b80011a800504e167,
  0x4d82b80004d82b91d11c84d80000000001a80011c000504e968,
  0x4d82b80004d82b91d11c84d80000000010b80011d800504f169,
  0x328cd0cd0cd0000000000000000000000000000cc8cc8cc80011e000000405096a,
  0x3292012011f80000000000000000000000000011f11f11f00011e800000405116b,
  0x1a83280000000001581581592109e12089e09e09e000000000000033000000605196c,
  0x12492400012212392312292200000000010b800121800505216d,
  0x12212600012212612312592200000000010b800125000505296e,
  0x12492400012212392312292200000000010b800125000505316f,
  0x12212600012212612312592200000000010b8001218005053970,
  0x12212600012212612212612200000000001a8001268005054171,
  0x12492400012212392212392200000000001a8001268005054972,
  0x328000cd0004055173,
  0x1220cb0001220cb1281279220000000000a50001270005055974,
  0x328cd0cd0cd00000000000000000000000000012392392380011e0000004056175,
  0x1220cb0001220cb12992912200000000001a8001288005056976,
  0x3280012a0004057177,
  0x1220cb0001220cb12812792200000000010b80012a8005057978,
  0x328cd0cd0cd00000000000000000000000000012b12b12b0000cc000000402d979,
  0x328cd0cd0cd0000000000000000000000000001239239238000cc000000402d97a,
  0x328cf8cf8cf80000000000000000000000000012392392380012b800000405817b,
  0x3280012c000402997c,
  0x4d82b80012c92d12c92d12c80000000005a80004d000502a17d,
  0x328bb8bb8bb80000000000000000000000000012d92d92d8000ba800000402a97e,
  0x3288408408400000000000000000000000000012e12e12e000083800000402b17f,
  0x4d82b80012c92d12f12e92c80000000005a8000c4000502b980,
  0x328000b80004029981,
  0xba02b80012f93012f93012f8000000000b880004d000502a182,
  0x328840840c00000000000000000000000000001309309308000bf000000402b183,
  0x328000b80004029984,
  0x328840840c00000000000000000000000000001311311310000bf000000402b185,
  0x328001318004029986,
  0x4d82b80013213393313293200000000005a8000c4000502b987,
  0x328bb8bb8bb8000000000000000000000000001341341340000ba800000402a988,
  0x32884084084000000000000000000000000000134934934800083800000402b189,
  0x4d82b80013213393213393200000000005a80004d000502a18a,
  0x32800135000402c18b,
  0xcb8cb00013593713693613580000000005e8000c8000502c98c,
  0x328cd0cd0cd0000000000000000000000000001379379378000cc000000402d18d,
  0x328cf8cf8cf80000000000000000000000000013813813800012b800000402e18e,
  0x428001388004c0018f,
  0x588580001391399391399390000000000280000958005c00190,
  0x4293b13b13b00000000000000000000000000013a93a93a80013a0000004c000d7,
  0x428dd0dd0dd00000000000000000000000000013a93a93a8000dc8000004c00191,
  0x588938000588938588938588000000000280000278005c000e7,
  0x4280013b0004c000e8,
  0x4293b13b13b00000000000000000000000000009389389380013a0000004c000e9,
  0x428001388004c00192,
  0x1581580001581581581581580000000002800013b8005c00193,
  0x4282782793d00000000000000000000000000013c93c93c80013c0000004c0002e,
  0x1581580001581581581581580000000002800013d8005c0002f,
  0xde0158158000158158df0df0158000000000280000de8005c00194,
  0x13e0158158000158158df0df0158000000000280000de8005c00195,
  0x14114080013f00a14013f93f00000000001a80013e80050cb996,
  0x13f00a00013f00a14013f93f00000000001a80013e80050cc197,
  0x14194080000a00a00a00a00a00000000001a80001c00050cc998,
  0xa00a00000a00a14214200a00000000001a80005c80050cd199,
  0xa00a00000a00a14314300a00000000001a80014280050cd99a,
  0x13f00a00014385b14405d14380000000005a80005c80050ce19b,
  0x328e70e70e700000000000000000000000000014514514500014480000040ce99c,
  0x1a83280000000001581581594601594581581581580000000000003300000060cf19d,
  0x14994900014786394894814780000000014700014680050cf99e,
  0x1478a38001478a394894a14780000000014700014680050d019f,
  0x14a9490000a00638a00638a000000000001a8000a400050d09a0,
  0x328000e700040d11a1,
  0xa00610000a006114c14b8a000000000001a80014b00050d19a2,
  0x328e70e70e700000000000000000000000000006386386380014480000040d21a3,
  0xa00610000a006114d94d0a000000000001a80014c80050d29a4,
  0x4282782794f00000000000000000000000000014e94e94e80014e0000004c001a5,
  0x1581580001581581581581580000000002800014f8005c001a6,
  0x158158000158158158158158000000000280001500005c001a7,
  0x428278279518000000000000000000000000001511511510001508000004c001a8,
  0x158158000158158158158158000000000280001520005c001a9,
  0x3280015280040d59aa,
  0xa006100015306095306095300000000005a8000a400050d61ab,
  0x328e70e70e70000000000000000000000000001539539538000e600000040d69ac,
  0x328e70e70e70000000000000000000000000000638638638000e600000040d71ad,
  0x328ec0ec0ec0000000000000000000000000000648648648000f100000040d79ae,
  0x329549549548000000000000000000000000000ee8ee8ee80015400000040d81af,
  0xed8ee8000ed8ee8ed8ee8ed80000000001a8000ed00050d89b0,
  0xed9550000ed9550ed9550ed80000000001a8000ed00050d91b1,
  0xed8ee0000ed8ee0ed8ee0ed80000000001a8000ed00050d99b2,
  0x3280015580040da1b3,
  0x14786100015706095785f95700000000015680015600050da9b4,
  0x328e70e70e70000000000000000000000000001581581580000e600000040db1b5,
  0xa00638000a00638a00638a000000000001a80001c00050db9b6,
  0x328000e700040dc1b7,
  0x158158000158159591590158000000000280001588005c001b8,
  0x1598158158000158159591590158000000000280001588005c001b9,
  0x328680680680000000000000000000000000000f50f50f50000a600000040899ba,
  0x15c95c00015a81f95b95b15a80000000001a80015a00050cb9bb,
  0x15a82100015a82115b95d15a80000000001a80015a00050cc1bc,
  0x15d95c00000e01f80e01f80e00000000001a80002180050cc9bd,
  0xe00d80000e00d95e95e00e00000000001a80006900050cd1be,
  0xe00d80000e00d96015f80e00000000001a80015f00050cd9bf,
  0x15a80d80016086696106996080000000005a80006900050ce1c0,
  0x328f90f90f900000000000000000000000000016216216200016180000040ce9c1,
  0x16516480016307016416396300000000014700016280050cf9c2,
  0x1630b08001630b096416596300000000014700016280050d01c3,
  0x1661648000ad0700ad0700ad00000000001a8000b100050d09c4,
  0x328000f900040d11c5,
  0xad06d8000ad06d9679670ad00000000001a80016680050d19c6,
  0x328f90f90f900000000000000000000000000007007007000016180000040d21c7,
  0xad06d8000ad06d9691688ad00000000001a80016800050d29c8,
  0x3280016980040d59c9]

def cmavoStates1 : List Nat := [
  0xad06d80016a06d16a06d16a00000000005a8000b100050d61ca,
  0x328f90f90f900000000000000000000000000016a96a96a8000f800000040d69cb,
  0x328f90f90f90000000000000000000000000000700700700000f800000040d71cc,
  0x328fb8fb8fb80000000000000000000000000007107107100010080000040d79cd,
  0x3296b96b96b8000000000000000000000000000fe0fe0fe00016b00000040d81ce,
  0xfd0fe0000fd0fe0fd0fe0fd00000000001a8000fc80050d89cf,
  0xfd16c0000fd16c0fd16c0fd00000000001a8000fc80050d91d0,
  0xfd0fd8000fd0fd8fd0fd8fd00000000001a8000fc80050d99d1,
  0x3280016c80040da1d2,
  0x16306d80016d86d16e06c16d80000000015680016d00050da9d3,
  0x328f90f90f900000000000000000000000000016e96e96e8000f800000040db1d4,
  0xad0700000ad0700ad0700ad00000000001a80001c00050db9d5,
  0x328000f900040dc1d6,
  0x428000b28004c00129,
  0x428278278278000000000000000000000000001041041040000420000004c001d7,
  0x4282782797000000000000000000000000000016f96f96f80016f0000004c001d8,
  0x280428000000000158158159721719711709709708000000000000420000006c001d9,
  0x158158000158158778778158000000001730001728005c001da,
  0x158158000158158778778158000000001730001738005c001db,
  0x158158000158158778778158000000001748001740005c001dc,
  0x428001750004c001dd,
  0x158158000158158778778158000000001730001728005c001de,
  0x428278278278000000000000000000000000001759759758000420000004c001df,
  0x428001760004c001e0,
  0x158158000158158790790158000000001770001768005c001e1,
  0x428278278278000000000000000000000000001779779778000420000004c001e2,
  0x280428000000000158158159088159780158158158000000000000420000006c001e3,
  0x158158000158158790790158000000001770001768005c001e4,
  0x158158000158158790790158000000000280000788005c001e5,
  0x158158000158158790790158000000001770001768005c001e6,
  0x328000bb80040129e7,
  0x1788158158000158158158158158000000000280000278005c001e8,
  0x158158000158159799798158000000000280001790005c001e9,
  0x3287b07b07a80000000000000000000000000007a07a07a00007980000040871ea,
  0x1a83280000000010a90a97a90a90a97a10a90a90a80000000000003300000060879eb,
  0x17b97b00004d84884d84884d80000000001a80004d00050071ec,
  0x17b97b00004d84884d84884d80000000001a80007e00050181ed,
  0x17c97d00017c97d17c97d17c80000000001a80017c00050071ee,
  0x17e97e00017c97d97c97d97c80000000001a80017c00050071ef,
  0x17c97d80017c97d97c97d97c80000000001a80017c00050071f0,
  0x3287b07b07a80000000000000000000000000007a07a07a00017f00000040179f1,
  0x4d84b80004d84b84d84b84d80000000001a80007e00050181f2,
  0x4d84880004d84884d84884d80000000001a80007e00050181f3,
  0x3287b07b07b00000000000000000000000000018018018000017f80000040061f4,
  0x4d84b80004d84b84d84b84d80000000001a80018080050071f5,
  0x4d84880004d84884d84884d80000000001a80018080050071f6,
  0x1820000000000000000000000000001819819818001810000004c001f7,
  0x3280018280040129f8,
  0x329829829828000000000000000000000000000be8be8be80018300000040061f9,
  0x18380a00018380a18380a18380000000001a8000bd00050071fa,
  0x328bb8bb8bb80000000000000000000000000011511511500010980000040061fb,
  0x3287b07b07a80000000000000000000000000007a07a07a00017f00000040871fc,
  0x17b97b00004d84884d84884d80000000001a80007e00050181fd,
  0x4d82b80004d82b84d82b84d80000000018400004d00050071fe,
  0x3291591591580000000000000000000000000008008008000018480000040061ff,
  0x328001158004012a00,
  0x7f08000007f08007f08007f00000000001a80001c0005007201,
  0x328001850004012a02,
  0x329851851850000000000000000000000000000c38c38c38001858000004006203,
  0x18600a00018600a18600a18600000000001a8000c20005007204,
  0x328001868004088205,
  0x18802b80018718798718798700000000001a80004d0005088a06,
  0x328bb8bb8bb8000000000000000000000000001889889888000ba8000004089207,
  0x328bb8bb8bb8000000000000000000000000001891891890000ba80000040898d7,
  0x3287b07b0820000000000000000000000000001899899898000798000004087208,
  0x4d84880004d84884d84884d80000000001a8000828005018209,
  0x3287b07b08200000000000000000000000000018a18a18a000079800000408a20a,
  0x3287b07b08200000000000000000000000000018998998980017f0000004017a0b,
  0x4d84b80004d84b84d84b84d80000000001a800082800501820c,
  0x4d84880004d84884d84884d80000000001a800082800501820d,
  0x3287b07b08200000000000000000000000000018998998980017f000000408720e,
  0x328000cd000408aa0f,
  0x3280018a800408b210,
  0x18c0cb00018b18b98b18b98b0000000000e4000126800508ba11,
  0x3298d98d98d80000000000000000000000000018d18d18d00018c800000408c212,
  0x3298d98d98d80000000000000000000000000018e18e18e00018c800000408ca13,
  0x18e8158158000158158e88e88158000000000280000e80005c00214,
  0x1581580001581598f98f81580000000002800018f0005c00215,
  0x32991991991000000000000000000000000000190990990800190000000408ea16,
  0x12212380012212392212392200000000001a800126800508f217,
  0x1220cb0001220cb1220cb12200000000001a800192000508fa18,
  0x12212380012212392212392200000000001a8001920005090219,
  0x1220cb0001220cb1220cb12200000000001a8001268005056a1a,
  0x19319380019319399319399300000000001a8001928005090a1b,
  0x19319400019319419319419300000000001a800192800509121c,
  0x329919919958000000000000000000000000001951951950001948000004091a1d,
  0x19600a00019600a19600a19600000000001a800192000509221e,
  0x19600a00019600a19600a19600000000001a8001268005092a1f,
  0x329971971970000000000000000000000000001239239238001968000004093220,
  0x329919919910000000000000000000000000001909909908001978000004093a21,
  0x12212600012212612212612200000000001a8001920005094a22,
  0x12212380012212392212392200000000001a8001920005090223,
  0x329919919918000000000000000000000000001989989988001980000004093224,
  0x12212600012212612212612200000000001a8001990005054225,
  0x12212380012212392212392200000000001a800199000508f226,
  0x328cd0cd0cd00000000000000000000000000012b12b12b00011e0000004056227,
  0x32991991991000000000000000000000000000190990990800197800000408ea28,
  0x1220cb0001220cb1220cb1220000000001840001268005056a29,
  0x328000cd000405722a,
  0x328bb8bb8bb80000000000000000000000000012d92d92d800109800000402aa2b,
  0x4d84880004d84899a99a04d800000000098800199800504e22c,
  0x4d84b80004d84b99a99b04d800000000098800199800504e22d,
  0x4d82b80004d82b99c99c04d80000000001a80019b800504ea2e,
  0x4d82b80004d82b99c99c04d80000000009880019d000504f22f,
  0x4d84b80004d84b99a99b04d80000000009880019d8005050230,
  0x4d84880004d84899a99a04d80000000009880019d8005050231,
  0x10d90d00010c04890c84790c00000000010b80010b000504e232,
  0x10c04b80010c04b90c84c90c00000000010b80010b000504e233,
  0x10c02b80010c02b91490f10c00000000010b800114000504f234,
  0x10c02b80010c02b99f19e90c00000000010b80019e000504f235,
  0x328bb8bb8bb800000000000000000000000000134134134000109800000402aa36,
  0x4d84880004d84888f08f84d80000000009880019f800504e237,
  0x4d84b80004d84b88f08e84d8000000000988001a00005050238,
  0x4d84880004d84888f08f84d8000000000988001a00005050239,
  0x4d84b80004d84b88f08e84d80000000009880019f800504e23a,
  0x4d82b80004d82b88f1a084d80000000001a800090000504ea3b,
  0x4d82b80004d82b88f1a084d80000000009880019f800504f23c,
  0x328cd0cd0cd00000000000000000000000000013793793780011e0000004050a3d,
  0x1249240001221239a21a19220000000000988001a1000505223e,
  0x1221260001221261a21a31220000000000988001a28005052a3f,
  0x1249240001221239a21a19220000000000988001a28005053240,
  0x1221260001221261a21a31220000000000988001a10005053a41,
  0x1220cb0001220cb1a21a41220000000000a50001a38005055a42,
  0x1220cb0001220cb1a21a41220000000000988001a10005057a43,
  0x4293b13b13b00000000000000000000000000013a93a93a8001a48000004c00244,
  0x588938000588939a61a58588000000000280001a50005c00245,
  0x588950000588951a61a68588000000000280001a50005c00246,
  0x4280013b0004c00150,
  0x588580000588581a81a78588000000000280001a70005c00153,
  0x4293b13b13b0000000000000000000000000000938938938001a48000004c00152,
  0x428278278278000000000000000000000000001a89a89a88000420000004c00247,
  0x4280013d0004c00052,
  0x158158001a99a99a99a99a98000000001a90000278005c00053,
  0x428278278278000000000000000000000000000978978978000420000004c00054,
  0x428278278278000000000000000000000000001aa1aa1aa0000420000004c00055,
  0x1aa8005c00248,
  0x3289a89a89a0000000000000000000000000000998998998001ab0000004125249,
  0x1ac1ab80000a00a00a00a00a00000000001a80001c0005125a4a,
  0xa00a00000a00a00a00a00a00000000001a8001ac800512624b,
  0x1ac1ab80000a00a00a00a00a00000000001a8001ac8005126a4c,
  0x1ad9ae0001ad9ae1ad9ae1ad80000000001a8001ad000512724d,
  0x1af9af0001ad9ae9ad9ae9ad80000000001a8001ad0005127a4e,
  0x1ad9ae8001ad9ae9ad9ae9ad80000000001a8001ad000512824f,
  0xa00a00000a00a00a00a00a00000000001a8001ac8005128a50,
  0x3289a89a89a8000000000000000000000000001b01b01b00000990000004129251,
  0xa00a00000a00a00a00a00a00000000001a80009a8005129a52,
  0x1ac1ab80000a00a01b01b00a000000000098800098000512a253,
  0x1ac1ab80000a00a01b01b00a00000000009880009b000512aa54,
  0x328000e7000412b255,
  0xa00610000a00611b19b10a000000000001a8001b0800512ba56,
  0x1b20158158000158158158158158000000000280000278005c00257,
  0x158158000158158e88e88158000000000280000e80005c00258,
  0x3289d89d89d00000000000000000000000000009c89c89c8001b2800000412d259,
  0x1a8328000000001461461b39461461b3146146146000000000000033000000612da5a,
  0x1b49b40000a00638a00638a000000000001a8000a4000512e25b,
  0xa00610000a00610a00610a000000000001a8001b5000512ea5c,
  0x1b49b40000a00638a00638a000000000001a8001b5000512f25d,
  0x1b61b68001b61b69b61b69b600000000001a8001b5800512fa5e,
  0x1b81b78001b61b71b61b71b600000000001a8001b5800513025f,
  0xf080a0000f080a0f080a0f080000000001a8001b50005130a60,
  0x1b61b70001b61b71b61b71b600000000001a8001b58005131261,
  0x3289d89d89d00000000000000000000000000009c89c89c80009c0000004131a62,
  0xa00a38000a00a38a00a38a000000000001a8001b50005132263,
  0xa00638000a00638a00638a000000000001a8001b50005132a64,
  0x3289d89d89d8000000000000000000000000001b91b91b90001b88000004133265,
  0xa00a38000a00a38a00a38a000000000001a8001b98005133a66,
  0xa00638000a00638a00638a000000000001a8001b98005134267,
  0x4280014f0004c00268,
  0x158158001ba9ba9ba9ba9ba8000000001ba0000278005c00269,
  0x428278278278000000000000000000000000001461461460000420000004c0026a,
  0x428278279bc0000000000000000000000000001bb9bb9bb8001bb0000004c0026b,
  0x428278279bc0000000000000000000000000001bc9bc9bc8001bb0000004c0026c,
  0x428001518004c0026d,
  0x158158001bd9bd9bd9bd9bd8000000001bd0000278005c0026e,
  0x428278278278000000000000000000000000001be1be1be0000420000004c0026f,
  0x428278279bc0000000000000000000000000001be9be9be8001bb0000004c00270,
  0x328e70e70e70000000000000000000000000001539539538001448000004139271,
  0xa00638000a00638a10a08a000000000009880009f8005139a72,
  0xa00610000a00610a10a58a000000000001a8000a4800513a273,
  0x328001bf000413aa74,
  0x329bf1bf1bf0000000000000000000000000000ee8ee8ee8001bf800000413b275,
  0x1c000a0001c000a1c000a1c000000000001a8000ed000513ba76,
  0x328e70e70e7000000000000000000000000000158158158000144800000413c277,
  0x3289d89d89d00000000000000000000000000009c89c89c80009c000000413ca78,
  0x1a8328000000001461461b39be1461c0946146146000000000000033000000613d279,
  0x1b49b40000a00638a10a08a000000000009880009f800513da7a,
  0x1b49b40000a00638a10a08a00000000000988000a2800513e27b,
  0xa00610000a00610a10a58a00000000001c10000a4800513ea7c,
  0x428278279c28000000000000000000000000001c21c21c20001c18000004c0027d,
  0x158158000158158158158158000000000280001c30005c0027e,
  0x158158000158158158158158000000000280001c38005c0027f,
  0x328a90a90a88000000000000000000000000000a80a80a80001c40000004125280,
  0x1c51c480000e01f80e01f80e00000000001a8000218005125a81,
  0xe00d80000e00d80e00d80e00000000001a8001c58005126282,
  0x1c51c480000e01f80e01f80e00000000001a8001c58005126a83,
  0x1c69c70001c69c71c69c71c680000000001a8001c60005127284,
  0x1c89c80001c69c79c69c79c680000000001a8001c60005127a85,
  0x3b00a00003b00a03b00a03b00000000001a8001c58005126286,
  0x1c69c78001c69c79c69c79c680000000001a8001c60005128287,
  0xe02100000e02100e02100e00000000001a8001c58005128a88,
  0xe01f80000e01f80e01f80e00000000001a8001c58005128a89,
  0x328a90a90a90000000000000000000000000001c91c91c90000a7800000412928a,
  0xe02100000e02100e02100e00000000001a8001c98005129a8b,
  0xe01f80000e01f80e01f80e00000000001a8001c98005129a8c,
  0x1c51c480000e01f81f01e80e0000000000988000a6800512a28d,
  0x1c51c480000e01f81f01e80e0000000000988000a9800512aa8e,
  0x328000f9000412b28f,
  0xad06d8000ad06d9cb1ca8ad00000000001a8001ca000512ba90,
  0x328ac0ac0ab8000000000000000000000000000ab0ab0ab0001cb800000412d291,
  0x1cc9cc0000ad0700ad0700ad00000000001a8000b1000512e292,
  0xad06d8000ad06d8ad06d8ad00000000001a8001cd000512ea93,
  0x1cc9cc0000ad0700ad0700ad00000000001a8001cd000512f294,
  0x1ce1ce8001ce1ce9ce1ce9ce00000000001a8001cd800512fa95,
  0x1d01cf8001ce1cf1ce1cf1ce00000000001a8001cd8005130296,
  0x10000a00010000a10000a10000000000001a8001cd0005130a97,
  0x1ce1cf0001ce1cf1ce1cf1ce00000000001a8001cd8005131298,
  0x328ac0ac0ab8000000000000000000000000000ab0ab0ab0000aa8000004131a99,
  0xad0b08000ad0b08ad0b08ad00000000001a8001cd000513229a,
  0xad0700000ad0700ad0700ad00000000001a8001cd0005132a9b,
  0x328ac0ac0ac0000000000000000000000000001d11d11d10001d0800000413329c,
  0xad0b08000ad0b08ad0b08ad00000000001a8001d18005133a9d,
  0xad0700000ad0700ad0700ad00000000001a8001d1800513429e,
  0x328f90f90f900000000000000000000000000016a96a96a800161800000413929f,
  0xad0700000ad0700ae0ad8ad0000000000988000ac8005139aa0,
  0xad06d8000ad06d8ae0b20ad00000000001a8000b1800513a2a1,
  0x328001d2000413aaa2,
  0x329d21d21d20000000000000000000000000000fe0fe0fe0001d2800000413b2a3,
  0x1d300a0001d300a1d300a1d300000000001a8000fc800513baa4,
  0x328f90f90f900000000000000000000000000016e96e96e800161800000413c2a5,
  0x328ac0ac0ab8000000000000000000000000000ab0ab0ab0000aa800000413caa6,
  0x1cc9cc0000ad0700ae0ad8ad0000000000988000ac800513daa7,
  0x1cc9cc0000ad0700ae0ad8ad0000000000988000af800513e2a8,
  0xad06d8000ad06d8ae0b20ad0000000001c10000b1800513eaa9,
  0x428001700004c002aa,
  0x158158001d41d41d41d41d40000000001d38000278005c002ab,
  0x428278278278000000000000000000000000001d49d49d48000420000004c002ac,
  0x158158000158159d51d50158000000000280001020005c002ad,
  0x1d58158158000158159d51d50158000000000280001020005c002ae,
  0x1d60158158000158159d51d50158000000000280001020005c002af,
  0x158158000158159d71d70158000000000280001d68005c002b0,
  0x428278279d88000000000000000000000000001d81d81d80001d78000004c002b1,
  0x280428000000001d91d91da1d91d91d99d91d91d90000000000000420000006c002b2,
  0x428278279db8000000000000000000000000001db1db1db0001da8000004c002b3,
  0x428278279d88000000000000000000000000001d81d81d80001d78000004c002b4,
  0x280428000000000158158159dc1dd1dc9dc1dc1dc0000000000000420000006c002b5,
  0x428278278278000000000000000000000000001759759758000420000004c002b6,
  0x158158000158158158158158000000001dd8000278005c002b7,
  0x428278278278000000000000000000000000001779779778000420000004c002b8,
  0x428278278b70000000000000000000000000000b68b68b68000b60000004c002b9,
  0x280428000000001089089de9089089de1089089088000000000000420000006c002ba,
  0x158158000158158158158158000000001df0000278005c002bb,
  0x1df8158158000158158158158158000000000280000278005c002bc,
  0x158158000158158158158158000000000280001e00005c002bd,
  0x428278279e18000000000000000000000000001e11e11e10001e08000004c002be,
  0x158158000158158158158158000000000280001e20005c002bf,
  0x1788158158000158159799798158000000000280001790005c002c0,
  0x1e28158158000158159799798158000000000280001790005c002c1,
  0x1e39e40001e39e41e39e41e380000000001a8001e300050072c2,
  0x1e39e48001e39e49e39e49e380000000001a8001e300050072c3,
  0x329e59e59e580000000000000000000000000017d97d97d8001e500000040062c4,
  0x17c97d80017c97d97c97d97c80000000001a80017c00050072c5,
  0x17c9e600017c9e617c9e617c80000000001a80017c00050072c6,
  0x17c97d00017c97d17c97d17c80000000001a80017c00050072c7,
  0x1e71e78001e71e79e71e79e700000000001a8001e680050072c8,
  0x1e71e80001e71e81e71e81e700000000001a8001e680050072c9,
  0x328000b80004029aca,
  0x328001e88004012a05,
  0x4d82b8001e91e99e91e99e900000000001a80004d0005007190,
  0x328840840840000000000000000000000000000bc0bc0bc0000838000004006191,
  0x1ea0004c002cb,
  0x1eb9eb8000000000001eb0001ea8005c002cc,
  0x1ec1ec1ec0000000000004c002cd,
  0x329829829828000000000000000000000000000be8be8be8001ec80000040062ce,
  0x328001828004012acf,
  0xbd8be8000bd8be8bd8be8bd80000000001a80001c00050072d0,
  0x1a8328000000001ed1ed1ee1ed1ed1ed9ed1ed1ed0000000000000330000006013ad1,
  0x328001158004012ad2,
  0x329851851850000000000000000000000000000c38c38c38001ee80000040062d3,
  0x328001850004012ad4,
  0xc28c38000c28c38c28c38c280000000001a80001c00050072d5,
  0x328bb8bb8bb8000000000000000000000000001891891890001098000004089a44,
  0x1f19f10001ef8489f09f01ef80000000001a8001ef00050cbad6,
  0x1ef84b8001ef84b9f09f21ef80000000001a8001ef00050cc2d7,
  0x1f29f100004d84884d84884d80000000001a80004d00050cc94f,
  0x4d82b80004d82b9f39f304d80000000001a8000c400050cd2d8,
  0x4d82b80004d82b9f51f484d80000000001a8001f400050cd953,
  0x4d82b8000c48c60c48c60c48000000000b880004d000502a2d9,
  0x1ef82b8001f58c61f60c51f58000000000b88000c400050ce2da,
  0x3298d98d98d8000000000000000000000000001f71f71f70001f680000040ceadb,
  0x1fa1f98001f81239f91f89f80000000001470001f780050cfadc,
  0x1f81260001f81261f91fa9f80000000001470001f780050d02dd,
  0x1fb1f980012212392212392200000000001a80012680050d0ade,
  0x3280018d80040d12df,
  0x1220cb0001220cb1fc9fc12200000000001a8001fb80050d1ae0,
  0x3298d98d98d8000000000000000000000000001239239238001f680000040d22e1,
  0x1220cb0001220cb1fe1fd92200000000001a8001fd00050d2976,
  0x158158000158158158158158000000000280001fe8005c002e2,
  0x42827827a000000000000000000000000000001ff9ff9ff8001ff0000004c002e3,
  0x158158000158158158158158000000000280002008005c002e4,
  0x3280020100040d5ae5,
  0x1220cb0002018caa018caa018000000000b880012680050d62e6,
  0x3298d98d98d80000000000000000000000000020220220200018c80000040d6ae7,
  0x3298d98d98d8000000000000000000000000000cd8cd8cd80018c80000040d7213,
  0x329971972030000000000000000000000000000ce8ce8ce80020280000040d7ae8,
  0x32a0420420400000000000000000000000000019419419400020380000040d82e9,
  0x19319400019319419319419300000000001a80019280050d8aea,
  0x19320480019320499320499300000000001a80019280050d92eb,
  0x19319380019319399319399300000000001a80019280050d9aec,
  0x3280020500040da2ed,
  0x1f80cb0002068caa070c9a0680000000020600020580050daaee,
  0x3298d98d98d800000000000000000000000000207a07a0780018c80000040db2ef,
  0x12212380012212392212392200000000001a80001c00050dbaf0,
  0x3280018d80040dc2f1,
  0x3298d98d98d80000000000000000000000000012392392380018c80000040d72f2,
  0x3280020100040d5af3,
  0x3280020800040dc2f4,
  0x1220cb000208a09208a0920880000000001a8001268005056af5,
  0x329971971970000000000000000000000000000cd8cd8cd80019680000040932f6,
  0x3287b07b0d18000000000000000000000000000d10d10d100020980000040872f7,
  0x4d82b80004d82b84d82b84d80000000001a8000d200050182f8,
  0x4d84880004d84884d84884d80000000001a8000d200050182f9,
  0x8300a00008300a08300a08300000000001a8000d200050182fa,
  0x3287b07b0d18000000000000000000000000000d10d10d100020a0000004017afb,
  0x4d84b80004d84b84d84b84d80000000001a8000d200050182fc,
  0x4d84880004d84884d84884d80000000001a8000d200050182fd,
  0x3287b07b0d18000000000000000000000000000d10d10d100020a00000040872fe,
  0x3287b07b0d180000000000000000000000000020aa0aa0a800209800000408a2ff,
  0x3288408420c00000000000000000000000000020ba0ba0b80020b0000004087300,
  0x4d84b80004d84b84d84b84d80000000001a80020c8005018301,
  0x17b97b00004d84884d84884d80000000001a80020c8005018302,
  0x328840840d68000000000000000000000000000d78d78d78000d58000004087303,
  0x328840840d680000000000000000000000000020d20d20d0000d5800000408a304,
  0x4d84b80004d84b84d84b84d80000000001a8000d70005018305,
  0x3299719720e80000000000000000000000000020e20e20e00020d800000408eb06,
  0x1220cb0001220cb1220cb12200000000001a80020f000508fb07,
  0x12212380012212392212392200000000001a80020f0005090308,
  0x3299719721080000000000000000000000000021021021000020f8000004091b09,
  0x19600a00019600a19600a19600000000001a80020f000509230a,
  0x3299719720e80000000000000000000000000020e20e20e00020d8000004093b0b,
  0x12212600012212612212612200000000001a80020f0005094b0c,
  0x4280013b0004c001e7,
  0x428db0db0db0000000000000000000000000000da8da8da8002110000004c0030d,
  0x588580000588580588580588000000000280000db8005c0030e,
  0x588938000588938588938588000000000280000db8005c0030f,
  0xdc0158000dc0158dc0158dc0000000000280000db8005c00310,
  0x428db0db0db0000000000000000000000000000da8da8da8002118000004c001f4,
  0x588950000588950588950588000000000280000db8005c001f5,
  0x588938000588938588938588000000000280000db8005c001f6,
  0x158158000158158df0df0158000000002128002120005c00311,
  0x280428000000000158158158978158970158158158000000000000420000006c0009a,
  0x158158000158158df0df0158000000002128002120005c0009b,
  0x158158000158158df0df0158000000002128002120005c0009d,
  0x2132132130000000000004c00312,
  0x3280009a800418a313,
  0x214214800214214a14214a1400000000001a800213800518ab14,
  0x21421500021421521421521400000000001a800213800518b315,
  0x3281c01c01c000000000000000000000000000215a15a15800033000000418bb16,
  0x32a16a16a168000000000000000000000000001ae9ae9ae800216000000418c317,
  0x1ad9ae8001ad9ae9ad9ae9ad80000000001a8001ad000518cb18,
  0x1ada170001ada171ada171ad80000000001a8001ad000518d319,
  0x1ad9ae0001ad9ae1ad9ae1ad80000000001a8001ad000518db1a,
  0x218218800218218a18218a1800000000001a800217800518e31b,
  0x21821900021821921821921800000000001a800217800518eb1c,
  0xa00a000219a19a19a19a1980000000001a80001c000518f31d,
  0x3289d89da1a80000000000000000000000000021a21a21a00009c000000418fb1e,
  0xa00a38000a00a38a00a38a000000000001a80021b000519031f,
  0xa00638000a00638a00638a000000000001a80021b0005190b20,
  0x1581580001581581581581580000000002800021b8005c00321,
  0x328000e38004191b22,
  0x1b20158158000158158e88e88158000000000280000e80005c00323,
  0x21c0158158000158158e88e88158000000000280000e80005c00324,
  0x21d21d80021d21da1d21da1d00000000001a80021c8005193325,
  0x21d21e00021d21e21d21e21d00000000001a80021c8005193b26,
  0x328ec0ec21f80000000000000000000000000021f21f21f00021e8000004194327,
  0x32a20a20a208000000000000000000000000001b71b71b70002200000004194b28,
  0x1b61b70001b61b71b61b71b600000000001a8001b58005195329,
  0x1b62210001b62211b62211b600000000001a8001b58005195b2a,
  0x1b61b68001b61b69b61b69b600000000001a8001b5800519632b,
  0x222222800222222a22222a2200000000001a8002218005196b2c,
  0x22222300022222322222322200000000001a800221800519732d,
  0x328002238004197b2e,
  0xa0061000224224a24224a2400000000001a8000a4000519832f,
  0x328ec0ec0ec0000000000000000000000000000e78e78e78000f10000004198b30,
  0x280428000000000158158159460159458158158158000000000000420000006c0019d,
  0x158158000158158e88e88158000000002258002250005c00331,
  0x428002260004c00332,
  0x158158000158158e88e88158000000002258002250005c00333,
  0x42827827827800000000000000000000000000226a26a268000420000004c00334,
  0x158158000158158ea0ea0158000000002278002270005c00335,
  0x280428000000000158158159be015a280158158158000000000000420000006c00336,
  0x158158000158158ea0ea0158000000002278002270005c00337,
  0x158158000158158ea0ea0158000000000280000e98005c00338,
  0x158158000158158ea0ea0158000000002278002270005c00339,
  0x329bf1bf1bf0000000000000000000000000000ee8ee8ee800228800000419db3a,
  0x328001bf000419e33b,
  0xed8ee8000ed8ee8ed8ee8ed80000000001a80001c000519eb3c,
  0x2290158158000158158e88e88158000000000280000e80005c0033d,
  0x1a832800000000229a29a2aa29a29a2a229a29a29800000000000033000000619fb3e,
  0x428001c28004c0033f,
  0x1581580022ba2ba2ba2ba2b80000000022b0000278005c00340,
  0x42827827827800000000000000000000000000229a29a298000420000004c00341,
  0x428278279bc00000000000000000000000000022c22c22c0001bb0000004c00342,
  0x428278279bc00000000000000000000000000022ca2ca2c8001bb0000004c00343,
  0x328000f2800418a344,
  0x22da2e00022da2e22da2e22d80000000001a80022d000518ab45,
  0x22da2e80022da2ea2da2ea2d80000000001a80022d000518b346,
  0x3283983983980000000000000000000000000022f22f22f00003b800000418bb47,
  0x32a302302300000000000000000000000000001c79c79c780022f800000418c348,
  0x1c69c78001c69c79c69c79c680000000001a8001c6000518cb49,
  0x1c6a308001c6a309c6a309c680000000001a8001c6000518d34a,
  0x1c69c70001c69c71c69c71c680000000001a8001c6000518db4b,
  0x231a32000231a32231a3223180000000001a800231000518e34c,
  0x231a32800231a32a31a32a3180000000001a800231000518eb4d,
  0xe00d800233233a33233a3300000000001a800021800518f34e,
  0x328398398398000000000000000000000000000f50f50f500003b8000004089b4f,
  0x328ac0ac2348000000000000000000000000002342342340000aa800000418fb50,
  0xad0b08000ad0b08ad0b08ad00000000001a8002350005190351,
  0xad0700000ad0700ad0700ad00000000001a8002350005190b52,
  0x328000f60004191b53,
  0x236236800236236a36236a3600000000001a8002358005193354,
  0x23623700023623723623723600000000001a8002358005193b55,
  0x328fb8fba388000000000000000000000000002382382380002378000004194356,
  0x32a39a39a398000000000000000000000000001cf1cf1cf0002390000004194b57,
  0x1ce1cf0001ce1cf1ce1cf1ce00000000001a8001cd8005195358,
  0x1ce23a0001ce23a1ce23a1ce00000000001a8001cd8005195b59,
  0x1ce1ce8001ce1ce9ce1ce9ce00000000001a8001cd800519635a,
  0x23b23b80023b23ba3b23ba3b00000000001a80023a8005196b5b,
  0x23b23c00023b23c23b23c23b00000000001a80023a800519735c,
  0x3280023c8004197b5d,
  0xad06d80023d23da3d23da3d00000000001a8000b1000519835e,
  0x328fb8fb8fb8000000000000000000000000000f98f98f98001008000004198b5f,
  0x329d21d21d20000000000000000000000000000fe0fe0fe00023e000000419db60,
  0x328001d2000419e361,
  0xfd0fe0000fd0fe0fd0fe0fd00000000001a80001c000519eb62,
  0x280428000000000158158159d4815a3e8158158158000000000000420000006c00363,
  0x158158000158159d51d501580000000023f80023f0005c00364,
  0x158158000158159d51d50158000000000280001020005c00365,
  0x158158000158158158158158000000000280002400005c00366,
  0x158158000158158158158158000000000280002408005c00367,
  0x2410005c00368,
  0x42827827a428000000000000000000000000002422422420002418000004c00369,
  0x158158000158158158158158000000000280002430005c0036a,
  0x428001d88004c0036b,
  0x158158001031031031031030000000002438000278005c0036c,
  0x428278278278000000000000000000000000001d91d91d90000420000004c0036d,
  0x158158000158158778778158000000000280001740005c0036e,
  0x2440158158000158158778778158000000000280001740005c0036f,
  0x2448158158000158158778778158000000000280001740005c00370,
  0x428002450004c00371,
  0x1581580010310310390390300000000024580023f0005c00372,
  0x428278278278000000000000000000000000002462462460000420000004c00373,
  0x15815800015815a472470158000000000280002468005c00374,
  0x247815815800015815a472470158000000000280002468005c00375,
  0x248015815800015815a472470158000000000280002468005c00376,
  0x28042800000000248a48a49a48a48a49248a48a488000000000000420000006c00377,
  0x1df8158158000158158790790158000000000280000788005c00378,
  0x24a0158158000158158790790158000000000280000788005c00379,
  0x280428000000001ed1ed1ee1ed1ed1ed9ed1ed1ed0000000000000420000006c002d1,
  0x158158000158158158158158000000000280000b58005c0037a,
  0x4282782790700000000000000000000000000024aa4aa4a8001060000004c0037b,
  0x428001e18004c0037c,
  0x1581580024ba4ba4ba4ba4b80000000024b0000278005c0037d,
  0x4282782782780000000000000000000000000010a90a90a8000420000004c0037e,
  0x4282782790700000000000000000000000000024c24c24c0001060000004c0037f,
  0x24c8005c00380,
  0x32a4da4da4d8000000000000000000000000001e49e49e480024d0000004006381,
  0x1e39e48001e39e49e39e49e380000000001a8001e30005007382,
  0x1e3a4e0001e3a4e1e3a4e1e380000000001a8001e30005007383,
  0x1e39e40001e39e41e39e41e380000000001a8001e30005007384,
  0x3280024e8004012b85,
  0x32a4ea4ea4e80000000000000000000000000017d97d97d80024f0000004006386,
  0x24f80a00024f80a24f80a24f80000000001a80017c0005007387,
  0x32a50a50a508000000000000000000000000001e81e81e80002500000004006388,
  0x1e71e80001e71e81e71e81e700000000001a8001e68005007389,
  0x1e72510001e72511e72511e700000000001a8001e6800500738a,
  0x1e71e78001e71e79e71e79e700000000001a8001e6800500738b,
  0x328bb8bb8bb8000000000000000000000000000bc0bc0bc0001098000004006244,
  0x4d84880004d848a52a5204d80000000001a8002518005007245,
  0x4d84b80004d84ba52a5304d80000000001a8002518005007246,
  0x1ec1ec1ec0000000000004c0038c,
  0x2548000000000000000000000000002542542540002538000004c0038d,
  0x255255255a55255255a552552550000000000000000000006c0038e,
  0x2560005c0038f,
  0x2568000000005c00390,
  0x328001828004012b91,
  0x15815800015815a57a578158000000000280002570005c00392,
  0x258015815800015815a57a578158000000000280002570005c00393,
  0x258815815800015815a57a578158000000000280002570005c00394,
  0x328001850004012b95,
  0x3291a11a1198000000000000000000000000001191191190002590000004125396,
  0x25a25980004d84884d84884d80000000001a80004d00051259ec,
  0x4d82b80004d82b84d82b84d80000000001a80025a8005126397,
  0x25a25980004d84884d84884d80000000001a80025a8005126b98,
  0x25ba5c00025ba5c25ba5c25b80000000001a80025b00051271ee,
  0x25da5d00025ba5ca5ba5ca5b80000000001a80025b00051279ef,
  0x8300a00008300a08300a08300000000001a80025a8005126399,
  0x25ba5c80025ba5ca5ba5ca5b80000000001a80025b00051281f0,
  0x4d84b80004d84b84d84b84d80000000001a80025a8005128b9a,
  0x4d84880004d84884d84884d80000000001a80025a8005128b9b,
  0x3291a11a11a00000000000000000000000000025e25e25e00011880000041291f4]

def cmavoStates2 : List Nat := [
  0x4d84b80004d84b84d84b84d80000000001a80025e80051299f5,
  0x4d84880004d84884d84884d80000000001a80025e80051299f6,
  0x25a25980004d84891b04c04d80000000010b80011a800512a39c,
  0x25a25980004d84891b04c04d80000000010b80011b800512ab9d,
  0x3280018d800412b39e,
  0x1220cb0001220cb26025f92200000000001a80025f000512bb9f,
  0x3292012011f80000000000000000000000000011f11f11f000260800000412d3a0,
  0x261a6100012212392212392200000000001a800126800512e3a1,
  0x1220cb0001220cb1220cb12200000000001a800262000512eba2,
  0x261a6100012212392212392200000000001a800262000512f3a3,
  0x263263800263263a63263a6300000000001a800262800512fba4,
  0x26526480026326426326426300000000001a80026280051303a5,
  0x19600a00019600a19600a19600000000001a8002620005130ba6,
  0x26326400026326426326426300000000001a80026280051313a7,
  0x3292012011f80000000000000000000000000011f11f11f00011e8000004131ba8,
  0x12212600012212612212612200000000001a80026200051323a9,
  0x12212380012212392212392200000000001a8002620005132baa,
  0x329201201200000000000000000000000000002662662660002658000004133224,
  0x12212600012212612212612200000000001a8002668005133a25,
  0x12212380012212392212392200000000001a8002668005134226,
  0x42827827a68000000000000000000000000000267a67a678002670000004c003ab,
  0x428002000004c003ac,
  0x158158002692692692692690000000002688000278005c003ad,
  0x42827827827800000000000000000000000000269a69a698000420000004c003ae,
  0x42827827a6800000000000000000000000000026a26a26a0002670000004c003af,
  0x3298d98d98d8000000000000000000000000002022022020001f680000041393b0,
  0x12212380012212392312292200000000010b8001218005139bb1,
  0x1220cb0001220cb12812792200000000001a800127000513a3b2,
  0x3280026a80040dc3b3,
  0x3298d98d98d80000000000000000000000000012b12b12b00018c80000040d73b4,
  0x3280026b000413abb5,
  0x32a6b26b26b00000000000000000000000000019419419400026b800000413b3b6,
  0x26c00a00026c00a26c00a26c00000000001a800192800513bbb7,
  0x3298d98d98d800000000000000000000000000207a07a078001f6800000413c3b8,
  0x3292012011f80000000000000000000000000011f11f11f00011e800000413cbb9,
  0x1a8328000000001461461b3a6994626c946146146000000000000033000000613d3ba,
  0x261a6100012212392312292200000000010b800121800513dbbb,
  0x261a6100012212392312292200000000010b800125000513e3bc,
  0x1220cb0001220cb1281279220000000001c1000127000513ebbd,
  0x3298d98d98d8000000000000000000000000000cd8cd8cd8001f680000040d23be,
  0x122123800122123a6e26d92200000000001a80026d000508f3bf,
  0x12212600012212626e26e92200000000001a80026d00050543c0,
  0x3280012c0004029bc1,
  0x3280012c0004029bc2,
  0x1ef82b80026f12d26f92ea6f00000000005a8000c400050ce3c3,
  0x328002700004029bc4,
  0xba02b800270a71270a712708000000000b880004d000502a3c5,
  0x328bb8bb8bb800000000000000000000000000271a71a718000ba800000402abc6,
  0x328840840c00000000000000000000000000002722722720000bf000000402b3c7,
  0x1ef82b800272933a73132a7280000000005a8000c400050ce3c8,
  0x3280027380040d5bc9,
  0x1220cb00027413727413727400000000005a80012680050d63ca,
  0x3298d98d98d800000000000000000000000000274a74a7480018c80000040d6bcb,
  0x3299719719700000000000000000000000000013813813800019680000040d7bcc,
  0x3280027500040da3cd,
  0x1f80cb00027593727613627580000000015680020580050dabce,
  0x3298d98d98d800000000000000000000000000276a76a7680018c80000040db3cf,
  0x428001388004c003d0,
  0x428001388004c00205,
  0x4282782793d00000000000000000000000000013c93c93c80013c0000004c0010d,
  0x280428000000000978978e00978978df8978978978000000000000420000006c0010e,
  0x2782780000000000002778002770005c003d1,
  0x32a7927927900000000000000000000000000021521521500027880000041e9bd2,
  0x21421500021421521421521400000000001a80021380051ea3d3,
  0x214279800214279a14279a1400000000001a80021380051eabd4,
  0x214214800214214a14214a1400000000001a80021380051eb3d5,
  0x13f00a00013f00a27a14213f00000000001a80005c80051ebbd6,
  0x3280027a80041ec3d7,
  0x32a7aa7aa7a8000000000000000000000000001ae9ae9ae80027b00000041ecbd8,
  0x27b80a00027b80a27b80a27b80000000001a8001ad00051ed3d9,
  0x32a7ca7ca7c80000000000000000000000000021921921900027c00000041edbda,
  0x21821900021821921821921800000000001a80021780051ee3db,
  0x21827d00021827d21827d21800000000001a80021780051eebdc,
  0x218218800218218a18218a1800000000001a80021780051ef3dd,
  0xa00a00000a00a27e27e00a00000000001a80027d80051efbde,
  0xa006100027ea7f27ea7f27e8000000000e40000a400051f03df,
  0x328e70e70e70000000000000000000000000001451451450000e600000041f0be0,
  0x328ec0ec21f80000000000000000000000000027fa7fa7f80021e80000041f13e1,
  0x428278279bc0000000000000000000000000002802802800001bb0000004c003e2,
  0x2808005c003e3,
  0x32a81a81a8180000000000000000000000000021e21e21e00028100000041f2be4,
  0x21d21e00021d21e21d21e21d00000000001a80021c80051f33e5,
  0x21d28200021d28221d28221d00000000001a80021c80051f3be6,
  0x21d21d80021d21da1d21da1d00000000001a80021c80051f43e7,
  0x3280028280041f4be8,
  0x14786100014786128314b94780000000014700015600051f53e9,
  0x328e70e70e7000000000000000000000000000283a83a838000e600000041f5bea,
  0x3280028400041f63eb,
  0x32a842842840000000000000000000000000001b71b71b700028480000041f6bec,
  0x28500a00028500a28500a28500000000001a8001b580051f73ed,
  0x32a8628628600000000000000000000000000022322322300028580000041f7bee,
  0x22222300022222322222322200000000001a80022180051f83ef,
  0x222286800222286a22286a2200000000001a80022180051f8bf0,
  0x222222800222222a22222a2200000000001a80022180051f93f1,
  0x328e70e70e70000000000000000000000000000e78e78e780014480000041f9bf2,
  0xa00638000a0063a882878a000000000001a80028700051fa3f3,
  0xa00a38000a00a3a882888a000000000001a80028700051fabf4,
  0x4282782794f00000000000000000000000000014e94e94e80014e0000004c003f5,
  0x280428000000001461461b39461461b31461461460000000000000420000006c0025a,
  0x42827827827800000000000000000000000000226a26a268000420000004c003f6,
  0x158158000158158158158158000000002890000278005c003f7,
  0x428278279518000000000000000000000000001511511510001508000004c003f8,
  0x280428000000001be1be28a1be1be2899be1be1be0000000000000420000006c003f9,
  0x2290158158000158158158158158000000000280000278005c003fa,
  0x328001bf00041fe3fb,
  0x158158000158158158158158000000000280001500005c003fc,
  0x158158000158159591590158000000000280001588005c003fd,
  0x28a8158158000158159591590158000000000280001588005c003fe,
  0x28b0158158000158159591590158000000000280001588005c003ff,
  0x28042800000000015815815a29815a8b8158158158000000000000420000006c00400,
  0x1581580001581595915901580000000028900028c0005c00401,
  0x1581580001581595915901580000000028900028c0005c00402,
  0x1581580001581595915901580000000028900028c0005c00403,
  0x32a8d28d28d00000000000000000000000000022ea2ea2e80028c80000041e9c04,
  0x22da2e80022da2ea2da2ea2d80000000001a80022d00051ea405,
  0x22da8d80022da8da2da8da2d80000000001a80022d00051eac06,
  0x22da2e00022da2e22da2e22d80000000001a80022d00051eb407,
  0x15a80d80015a80da8e15e15a80000000001a80006900051ebc08,
  0x3280028e80041ec409,
  0x32a8ea8ea8e8000000000000000000000000001c79c79c780028f00000041ecc0a,
  0x28f80a00028f80a28f80a28f80000000001a8001c600051ed40b,
  0x32a90a90a90800000000000000000000000000232a32a3280029000000041edc0c,
  0x231a32800231a32a31a32a3180000000001a80023100051ee40d,
  0x231a91000231a91231a9123180000000001a80023100051eec0e,
  0x231a32000231a32231a3223180000000001a80023100051ef40f,
  0xe01f80000e01fa92a9200e00000000001a80029180051efc10,
  0xe02100000e021292a9300e00000000001a80029180051efc11,
  0xad06d800293a94293a942938000000000e40000b100051f0412,
  0x328f90f90f90000000000000000000000000001621621620000f800000041f0c13,
  0x328fb8fba38800000000000000000000000000294a94a9480023780000041f1414,
  0x32a95a95a9580000000000000000000000000023723723700029500000041f2c15,
  0x23623700023623723623723600000000001a80023580051f3416,
  0x23629600023629623629623600000000001a80023580051f3c17,
  0x236236800236236a36236a3600000000001a80023580051f4418,
  0x3280029680041f4c19,
  0x16306d80016306da9716716300000000014700016d00051f541a,
  0x328f90f90f9000000000000000000000000000297a97a978000f800000041f5c1b,
  0x3280029800041f641c,
  0x32a982982980000000000000000000000000001cf1cf1cf00029880000041f6c1d,
  0x29900a00029900a29900a29900000000001a8001cd80051f741e,
  0x32a9a29a29a00000000000000000000000000023c23c23c00029980000041f7c1f,
  0x23b23c00023b23c23b23c23b00000000001a80023a80051f8420,
  0x23b29a80023b29aa3b29aa3b00000000001a80023a80051f8c21,
  0x23b23b80023b23ba3b23ba3b00000000001a80023a80051f9422,
  0x328f90f90f90000000000000000000000000000f98f98f980016180000041f9c23,
  0xad0700000ad07029c29b8ad00000000001a80029b00051fa424,
  0xad0b08000ad0b0a9c29c8ad00000000001a80029b00051fac25,
  0x328001d200041fe426,
  0x29d0158158000158158158158158000000000280000278005c00427,
  0x4282782797000000000000000000000000000016f96f96f80016f0000004c00428,
  0x280428000000001d49d4a9e1d49d4a9d9d49d49d48000000000000420000006c00429,
  0x42827827a9f80000000000000000000000000029f29f29f00029e8000004c0042a,
  0x42827827aa10000000000000000000000000002a0aa0aa08002a00000004c0042b,
  0x2a28000000000000000000000000002a22a22a20002a18000004c0042c,
  0x428002428004c0042d,
  0x158158002a3aa3aa3aa3aa38000000002a30000278005c0042e,
  0x428278278278000000000000000000000000002a42a42a40000420000004c0042f,
  0x42827827aa10000000000000000000000000002a4aa4aa48002a00000004c00430,
  0x280428000000000158158159d9015aa50158158158000000000000420000006c00431,
  0x158158000158158158158158000000000280002a58005c00432,
  0x2a60005c00433,
  0x428278278278000000000000000000000000002462462460000420000004c00434,
  0x280428000000001d49d4a9e2a41d4aa69d49d49d48000000000000420000006c00435,
  0x158158000158158778778158000000002a70001740005c00436,
  0x42827827aa88000000000000000000000000002a82a82a80002a78000004c00437,
  0x158158000158158158158158000000000280002a90005c00438,
  0x158158000158158158158158000000000280002a98005c00439,
  0x2aa0005c0043a,
  0x15815800015815aab2ab0158000000000280002aa8005c0043b,
  0x2ab815815800015815aab2ab0158000000000280002aa8005c0043c,
  0x2ac015815800015815aab2ab0158000000000280002aa8005c0043d,
  0x1118005c0043e,
  0x158158000158159799798158000000002ad0002ac8005c0043f,
  0x2804280000000001581581590a81590a0158158158000000000000420000006c0014c,
  0x158158000158159799798158000000002ad0002ac8005c00440,
  0x158158000158159799798158000000002ad0002ac8005c00441,
  0x1820000000000000000000000000002adaadaad8001810000004c00442,
  0x328002ae0004012c43,
  0x32aae2ae2ae0000000000000000000000000001e49e49e48002ae8000004006444,
  0x2af00a0002af00a2af00a2af00000000001a8001e30005007445,
  0x32a4ea4ea4e80000000000000000000000000017d97d97d8002af8000004006446,
  0x3280024e8004012c47,
  0x17c97d80017c97d97c97d97c80000000001a80001c0005007448,
  0x328002b00004012c49,
  0x32ab02b02b00000000000000000000000000001e81e81e80002b0800000400644a,
  0x2b100a0002b100a2b100a2b100000000001a8001e6800500744b,
  0x3287b07b07b0000000000000000000000000001801801800002b1800000400630d,
  0x4d82b80004d82b84d82b84d80000000001a800180800500730e,
  0x4d84880004d84884d84884d80000000001a800180800500730f,
  0x8300a00008300a08300a08300000000001a8001808005007310,
  0x2548004c0044c,
  0x2b2ab2ab2ab2ab28000000002b20000000005c0044d,
  0x2552552550000000000004c0044e,
  0x1eb9eb8000000000000000002b30005c0044f,
  0x24a0000000000000001eb9eb8000000000000000002b30005c00450,
  0x1820000000000000000000000000002b3ab3ab38001810000004c00451,
  0x2b42b42b4ab42b42b4ab42b42b40000000000000000000006c00452,
  0x42827827ab60000000000000000000000000002b5ab5ab58002b50000004c00453,
  0x158158000158158158158158000000000280002b68005c00454,
  0x158158000158158158158158000000000280002b70005c00455,
  0x2b78005c00456,
  0x32800186800418a3d0,
  0x2b8ab90002b8ab92b8ab92b880000000001a8002b8000518aac2,
  0x2b8ab98002b8ab9ab8ab9ab880000000001a8002b8000518b2c3,
  0x328840840840000000000000000000000000002ba2ba2ba000083800000418bc57,
  0x32abb2bb2bb00000000000000000000000000025ca5ca5c8002ba800000418c2c4,
  0x25ba5c80025ba5ca5ba5ca5b80000000001a80025b000518cac5,
  0x25babb80025babba5babba5b80000000001a80025b000518d2c6,
  0x25ba5c00025ba5c25ba5c25b80000000001a80025b000518dac7,
  0x2bcabd0002bcabd2bcabd2bc80000000001a8002bc000518e2c8,
  0x2bcabd8002bcabdabcabdabc80000000001a8002bc000518eac9,
  0x4d82b8002be2beabe2beabe00000000001a80004d000518f190,
  0x328840840840000000000000000000000000001891891890000838000004089991,
  0x329201202bf8000000000000000000000000002bf2bf2bf00011e800000418fc58,
  0x12212600012212612212612200000000001a8002c00005190459,
  0x12212380012212392212392200000000001a8002c00005190c5a,
  0x3280018a8004191c5b,
  0x2c12c18002c12c1ac12c1ac100000000001a8002c0800519345c,
  0x2c12c20002c12c22c12c22c100000000001a8002c08005193c5d,
  0x329971972c38000000000000000000000000002c32c32c30002c2800000419445e,
  0x32ac4ac4ac48000000000000000000000000002642642640002c40000004194c5f,
  0x26326400026326426326426300000000001a8002628005195460,
  0x2632c50002632c52632c526300000000001a8002628005195c61,
  0x263263800263263a63263a6300000000001a8002628005196462,
  0x2c62c68002c62c6ac62c6ac600000000001a8002c58005196c63,
  0x2c62c70002c62c72c62c72c600000000001a8002c58005197464,
  0x328002c78004197af4,
  0x1220cb0002c82c8ac82c8ac800000000001a80012680051982f5,
  0x3299719719700000000000000000000000000018e18e18e0001968000004198af6,
  0x428002c90004c00465,
  0x1581580001581598f98f8158000000002ca0002c98005c00466,
  0x428278278278000000000000000000000000002caacaaca8000420000004c00467,
  0x28042800000000015815815a69815acb0158158158000000000000420000006c00468,
  0x1581580001581598f98f8158000000002ca0002c98005c00469,
  0x1581580001581598f98f81580000000002800018f0005c0046a,
  0x1581580001581598f98f8158000000002ca0002c98005c0046b,
  0x3298d98d98d80000000000000000000000000012b12b12b0001f680000040d246c,
  0x32a6b26b26b0000000000000000000000000001941941940002cb800000419dc6d,
  0x3280026b000419e46e,
  0x19319400019319419319419300000000001a80001c000519ec6f,
  0x2cc0158158000158158e88e88158000000000280000e80005c00470,
  0x329919919918000000000000000000000000001989989988002cc8000004093471,
  0x1220cb0001220cb1220cb12200000000001a8001990005056c72,
  0x12212380012212392212392200000000001a800199000508f473,
  0x19600a00019600a19600a19600000000001a8001990005092c74,
  0x25a25980004d84899a99a04d800000000098800199800512a475,
  0x25a25980004d84899a99a04d80000000009880019d800512ac76,
  0x328bb8bb8bb8000000000000000000000000002cd2cd2cd000109800000402ac77,
  0x10d90d00010c04899f2cd90c00000000010b80019e000504e478,
  0x10c04b80010c04b99f2ce10c00000000010b80019e000504e479,
  0x4d82b80004d82bacf19e84d80000000001a8002ce800504ec7a,
  0x10c02b80010c02b99f19e90c00000000010b80019e000504f47b,
  0x25a25980004d84888f08f84d80000000009880019f800512a47c,
  0x25a25980004d84888f08f84d8000000000988001a0000512ac7d,
  0x3298d98d98d800000000000000000000000000274a74a748001f6800000413947e,
  0x1221238001221239a21a19220000000000988001a10005139c7f,
  0x1220cb0001220cb1a21a412200000000001a8001a3800513a480,
  0x3298d98d98d800000000000000000000000000276a76a768001f6800000413c481,
  0x261a610001221239a21a19220000000000988001a1000513dc82,
  0x261a610001221239a21a19220000000000988001a2800513e483,
  0x1220cb0001220cb1a21a41220000000001c10001a3800513ec84,
  0x2d08000000000000000000000000002d02d02d00002cf8000004c00485,
  0x2d12d12d1ad12d12d1ad12d12d10000000000000000000006c00486,
  0x2d20005c00487,
  0x328002d28004244c88,
  0x32ad2ad2ad28000000000000000000000000002152152150002d30000004245489,
  0x2d380a0002d380a2d380a2d380000000001a8002138005245c8a,
  0x1ac1ab80000a00a00a00a00a00000000001a8001ac800524648b,
  0x32a7aa7aa7a8000000000000000000000000001ae9ae9ae8002d40000004246c8c,
  0x3280027a800424748d,
  0x1ad9ae8001ad9ae9ad9ae9ad80000000001a80001c0005247c8e,
  0x328002d4800424848f,
  0x32ad4ad4ad48000000000000000000000000002192192190002d50000004248c90,
  0x2d580a0002d580a2d580a2d580000000001a8002178005249491,
  0x3289a89a89a8000000000000000000000000001b01b01b00001ab0000004249c92,
  0xa00a00000a00a00a00a00a00000000001a80009a800524a493,
  0xa00638000a0063ad72d68a00000000001470002d6000524ac94,
  0xa00a38000a00a3ad72d78a00000000001470002d6000524b495,
  0xa00610000a00611b19b10a00000000001470002d8000524bc96,
  0x158158000158158e88e88158000000002258002250005c00497,
  0x2d98000000000000000000000000002d92d92d90002d88000004c00498,
  0x328002da000424d499,
  0x32ada2da2da00000000000000000000000000021e21e21e0002da800000424dc9a,
  0x2db00a0002db00a2db00a2db00000000001a80021c800524e49b,
  0x328e70e70e7000000000000000000000000000283a83a83800144800000424ec9c,
  0x1b49b40000a00638a00638a000000000001a8001b5000524f49d,
  0xa00610000a00610a00610a00000000001c10000a4000524fc9e,
  0x32a842842840000000000000000000000000001b71b71b70002db800000425049f,
  0x328002840004250ca0,
  0x1b61b70001b61b71b61b71b600000000001a80001c00052514a1,
  0x328002dc0004251ca2,
  0x32adc2dc2dc0000000000000000000000000002232232230002dc80000042524a3,
  0x2dd00a0002dd00a2dd00a2dd00000000001a8002218005252ca4,
  0x3289d89d89d8000000000000000000000000001b91b91b90002dd80000042534a5,
  0xa00610000a00610a00610a000000000001a8001b98005253ca6,
  0xa00638000a00638a00638a000000000001a8001b980052544a7,
  0xf080a0000f080a0f080a0f080000000001a8001b98005254ca8,
  0x28042800000000229a29a2aa29a29a2a229a29a298000000000000420000006c0033e,
  0x2290158158000158158ea0ea0158000000000280000e98005c004a9,
  0x2de0158158000158158ea0ea0158000000000280000e98005c004aa,
  0x158158000158158158158158000000000280001c38005c004ab,
  0x2de8005c004ac,
  0x28a8158158000158158158158158000000000280000278005c004ad,
  0x428278279c28000000000000000000000000001c21c21c20001c18000004c004ae,
  0x328002df0004244caf,
  0x32adf2df2df00000000000000000000000000022ea2ea2e8002df80000042454b0,
  0x2e000a0002e000a2e000a2e000000000001a80022d0005245cb1,
  0x1c51c480000e01f80e01f80e00000000001a8001c580052464b2,
  0x32a8ea8ea8e8000000000000000000000000001c79c79c78002e08000004246cb3,
  0x3280028e80042474b4,
  0x1c69c78001c69c79c69c79c680000000001a80001c0005247cb5,
  0x328002e100042484b6,
  0x32ae12e12e1000000000000000000000000000232a32a328002e18000004248cb7,
  0x2e200a0002e200a2e200a2e200000000001a80023100052494b8,
  0x328a90a90a90000000000000000000000000001c91c91c90001c40000004249cb9,
  0xe00d80000e00d80e00d80e00000000001a8001c9800524a4ba,
  0xe01f80000e01f80e01f80e00000000001a8001c9800524a4bb,
  0x3b00a00003b00a03b00a03b00000000001a8001c9800524a4bc,
  0xad0700000ad0702e3ae30ad0000000001470002e2800524acbd,
  0xad0b08000ad0b0ae3ae40ad0000000001470002e2800524b4be,
  0xad06d8000ad06d9cb1ca8ad0000000001470002e4800524bcbf,
  0x328002e5000424d4c0,
  0x32ae52e52e50000000000000000000000000002372372370002e5800000424dcc1,
  0x2e600a0002e600a2e600a2e600000000001a800235800524e4c2,
  0x328f90f90f9000000000000000000000000000297a97a97800161800000424ecc3,
  0x1cc9cc0000ad0700ad0700ad00000000001a8001cd000524f4c4,
  0xad06d8000ad06d8ad06d8ad0000000001c10000b1000524fcc5,
  0x32a982982980000000000000000000000000001cf1cf1cf0002e680000042504c6,
  0x328002980004250cc7,
  0x1ce1cf0001ce1cf1ce1cf1ce00000000001a80001c00052514c8,
  0x328002e70004251cc9,
  0x32ae72e72e700000000000000000000000000023c23c23c0002e780000042524ca,
  0x2e800a0002e800a2e800a2e800000000001a80023a8005252ccb,
  0x328ac0ac0ac0000000000000000000000000001d11d11d10002e880000042534cc,
  0xad06d8000ad06d8ad06d8ad00000000001a8001d18005253ccd,
  0xad0700000ad0700ad0700ad00000000001a8001d180052544ce,
  0x10000a00010000a10000a10000000000001a8001d18005254ccf,
  0x158158000158158158158158000000000280002e90005c004d0,
  0x29d0158158000158159d51d50158000000000280001020005c004d1,
  0x2e98158158000158159d51d50158000000000280001020005c004d2,
  0x428002ea0004c004d3,
  0x158158000158159d51d501580000000023f80023f0005c004d4,
  0x428278278278000000000000000000000000002eaaeaaea8000420000004c004d5,
  0x428002eb0004c004d6,
  0x158158000158159d71d70158000000002ec0002eb8005c004d7,
  0x428278278278000000000000000000000000002ecaecaec8000420000004c004d8,
  0x2ed0004c004d9,
  0x2eeaee8000000000002ee0002ed8005c004da,
  0x2ef2ef2ef0000000000004c004db,
  0x28042800000000015815815aa4015aef8158158158000000000000420000006c004dc,
  0x158158000158159d71d70158000000002ec0002eb8005c004dd,
  0x158158000158159d71d70158000000000280001d68005c004de,
  0x158158000158159d71d70158000000002ec0002eb8005c004df,
  0x2440158158000158158158158158000000000280000278005c004e0,
  0x428278279058000000000000000000000000002f02f02f00001048000004c004e1,
  0x2f18000000000000000000000000002f12f12f10002f08000004c004e2,
  0x2f20158158000158159d51d50158000000000280001020005c004e3,
  0x280428000000002f2af2af3af2af2af32f2af2af28000000000000420000006c004e4,
  0x428002a88004c004e5,
  0x158158002f4af4af4af4af48000000002f40000278005c004e6,
  0x428278278278000000000000000000000000002f2af2af28000420000004c004e7,
  0x42827827a9f8000000000000000000000000002f52f52f500029e8000004c004e8,
  0x42827827a9f8000000000000000000000000002f5af5af580029e8000004c004e9,
  0x2a28000000000000000000000000002f62f62f60002a18000004c004ea,
  0x42827827af78000000000000000000000000002f72f72f70002f68000004c004eb,
  0x158158000158158158158158000000000280002f80005c004ec,
  0x158158000158158158158158000000000280002f88005c004ed,
  0x2f90005c004ee,
  0x428278279e18000000000000000000000000001e11e11e10001e08000004c004ef,
  0x2804280000000010a90a97a90a90a97a10a90a90a8000000000000420000006c001eb,
  0x2faafa8000000000002fa0002f98005c004f0,
  0x32aae2ae2ae0000000000000000000000000001e49e49e48002fb00000040064f1,
  0x328002ae0004012cf2,
  0x1e39e48001e39e49e39e49e380000000001a80001c00050074f3,
  0x3280024e8004012cf4,
  0x32ab02b02b00000000000000000000000000001e81e81e80002fb80000040064f5,
  0x328002b00004012cf6,
  0x1e71e80001e71e81e71e81e700000000001a80001c00050074f7,
  0x328001e88004012bd0,
  0x2550002fc0000000000000000000000000000006c004f8,
  0x1eb9eb8000000000001eb0001ea8005c004f9,
  0x2548000000000000000000000000002542542540002538000004c004fa,
  0x1eb9eb8000000000001eb0001ea8005c004fb,
  0x2fd2fd0000000000000000002fc8005c004fc,
  0x2588000000000000002fd2fd0000000000000000002fc8005c004fd,
  0x428002b60004c004fe,
  0x158158002fe2fe2fe2fe2fe0000000002fd8000278005c004ff,
  0x428278278278000000000000000000000000001ed1ed1ed0000420000004c00500,
  0x428278279070000000000000000000000000002feafeafe8001060000004c00501,
  0x428278279070000000000000000000000000002ff2ff2ff0001060000004c00502,
  0x1820000000000000000000000000002ffaffaff8001810000004c00503,
  0x32b00b00b008000000000000000000000000002b9ab9ab980030000000041e9b81,
  0x2b8ab98002b8ab9ab8ab9ab880000000001a8002b800051ea382,
  0x2b8b010002b8b012b8b012b880000000001a8002b800051eab83,
  0x2b8ab90002b8ab92b8ab92b880000000001a8002b800051eb384,
  0x1ef82b8001ef82bb019f31ef80000000001a8000c400051ebd04,
  0x3280030200041ec385,
  0x32b0230230200000000000000000000000000025ca5ca5c80030280000041ecb86,
  0x30300a00030300a30300a30300000000001a80025b00051ed387,
  0x32b043043040000000000000000000000000002bdabdabd80030380000041edb88,
  0x2bcabd8002bcabdabcabdabc80000000001a8002bc00051ee389,
  0x2bcb048002bcb04abcb04abc80000000001a8002bc00051eeb8a,
  0x2bcabd0002bcabd2bcabd2bc80000000001a8002bc00051ef38b,
  0x4d84880004d848b0630584d80000000001a80030500051efa45,
  0x4d84b80004d84bb0630684d80000000001a80030500051efa46,
  0x1220cb000307307b07307b070000000000e400012680051f0505,
  0x3298d98d98d8000000000000000000000000001f71f71f700018c80000041f0d06,
  0x329971972c38000000000000000000000000003083083080002c280000041f1507,
  0x32b093093090000000000000000000000000002c22c22c200030880000041f2d08,
  0x2c12c20002c12c22c12c22c100000000001a8002c080051f3509,
  0x2c13098002c1309ac1309ac100000000001a8002c080051f3d0a,
  0x2c12c18002c12c1ac12c1ac100000000001a8002c080051f450b,
  0x3280030a00041f4d0c,
  0x1f80cb0001f80cb30a9fc1f800000000014700020580051f550d,
  0x3298d98d98d80000000000000000000000000030b30b30b00018c80000041f5d0e,
  0x3280030b80041f650f,
  0x32b0bb0bb0b80000000000000000000000000026426426400030c00000041f6d10,
  0x30c80a00030c80a30c80a30c80000000001a80026280051f7511,
  0x32b0db0db0d8000000000000000000000000002c72c72c700030d00000041f7d12,
  0x2c62c70002c62c72c62c72c600000000001a8002c580051f8513,
  0x2c630e0002c630e2c630e2c600000000001a8002c580051f8d14,
  0x2c62c68002c62c6ac62c6ac600000000001a8002c580051f9515,
  0x3298d98d98d80000000000000000000000000018e18e18e0001f680000041f9bbe,
  0x122123800122123b0fb0f12200000000001a80030e80051fa3bf,
  0x12212600012212630fb1012200000000001a80030e80051fabc0,
  0x428278278278000000000000000000000000002caacaaca8000420000004c00516,
  0x42827827a000000000000000000000000000001ff9ff9ff8001ff0000004c00517,
  0x28042800000000269a69b11269a69b10a69a69a698000000000000420000006c00518,
  0x158158000158158158158158000000003118000278005c00519,
  0x2cc0158158000158158158158158000000000280000278005c0051a,
  0x3280026b00041fe51b,
  0x158158000158158158158158000000000280001fe8005c0051c,
  0x3280020800040dc51d,
  0x4d82b80004d82bb1331284d80000000001a800312000504ed1e,
  0x4d82b80004d82b84d82b84d80000000001a80020c800501851f,
  0x8300a00008300a08300a08300000000001a80020c8005018520,
  0x3288408420c00000000000000000000000000020ba0ba0b80020b0000004017d21,
  0x4d84880004d84884d84884d80000000001a80020c8005018522,
  0x2d08004c00523,
  0x3143143143143140000000003138000000005c00524,
  0x2d12d12d10000000000004c00525,
  0x2782780000000000000000003148005c00526,
  0x13e0000000000000002782780000000000000000003148005c00527,
  0x3153153150000000000004c00528,
  0x32ad2ad2ad28000000000000000000000000002152152150003158000004295529,
  0x328002d28004295d2a,
  0x21421500021421521421521400000000001a80001c000529652b,
  0x3280027a8004296d2c,
  0x32ad4ad4ad4800000000000000000000000000219219219000316000000429752d,
  0x328002d48004297d2e,
  0x21821900021821921821921800000000001a80001c000529852f,
  0x3289d89da1a80000000000000000000000000021a21a21a0001b28000004298d30,
  0xa00610000a00610a00610a000000000001a80021b0005299531,
  0xa00638000a00638a00638a000000000001a80021b0005299d32,
  0xf080a0000f080a0f080a0f080000000001a80021b000529a533,
  0x3289d89da1a80000000000000000000000000021a21a21a00009c000000429ad34,
  0x3168004c00535,
  0x3183180000000000003178003170005c00536,
  0x318b18b188000000000004c00537,
  0x32ada2da2da00000000000000000000000000021e21e21e000319000000429cd38,
  0x328002da000429d539,
  0x21d21e00021d21e21d21e21d00000000001a80001c000529dd3a,
  0x32800284000429e53b,
  0x32adc2dc2dc000000000000000000000000000223223223000319800000429ed3c,
  0x328002dc000429f53d,
  0x22222300022222322222322200000000001a80001c000529fd3e,
  0x3280022380042a053f,
  0x31a0005c00540,
  0x2d980000000000000000000000000031ab1ab1a8002d88000004c00541,
  0x32adf2df2df00000000000000000000000000022ea2ea2e80031b0000004295542,
  0x328002df0004295d43,
  0x22da2e80022da2ea2da2ea2d80000000001a80001c0005296544,
  0x3280028e8004296d45,
  0x32ae12e12e1000000000000000000000000000232a32a3280031b8000004297546,
  0x328002e10004297d47,
  0x231a32800231a32a31a32a3180000000001a80001c0005298548,
  0x328ac0ac2348000000000000000000000000002342342340001cb8000004298d49,
  0xad06d8000ad06d8ad06d8ad00000000001a800235000529954a,
  0xad0700000ad0700ad0700ad00000000001a8002350005299d4b,
  0x10000a00010000a10000a10000000000001a800235000529a54c,
  0x328ac0ac2348000000000000000000000000002342342340000aa800000429ad4d,
  0x32ae52e52e500000000000000000000000000023723723700031c000000429cd4e,
  0x328002e5000429d54f,
  0x23623700023623723623723600000000001a80001c000529dd50,
  0x32800298000429e551,
  0x32ae72e72e700000000000000000000000000023c23c23c00031c800000429ed52,
  0x328002e7000429f553,
  0x23b23c00023b23c23b23c23b00000000001a80001c000529fd54,
  0x3280023c80042a0555,
  0x42827827a9f80000000000000000000000000031d31d31d00029e8000004c00556,
  0x2410005c00557,
  0x428278278278000000000000000000000000002eaaeaaea8000420000004c00558,
  0x158158000158158158158158000000002a70000278005c00559,
  0x428278278278000000000000000000000000002ecaecaec8000420000004c0055a,
  0x42827827a428000000000000000000000000002422422420002418000004c0055b,
  0x280428000000002a42a431e2a42a431daa42a42a40000000000000420000006c0055c,
  0x1581580001581581581581580000000031e8000278005c0055d,
  0x2ef2ef2ef0000000000004c0055e,
  0x32000000000000000000000000000031fb1fb1f80031f0000004c0055f,
  0x320b20b21320b20b21320b20b208000000000000000000006c00560]

def cmavoStates3 : List Nat := [
  0x3218005c00561,
  0x3220000000005c00562,
  0x2f20158158000158158158158158000000000280000278005c00563,
  0x158158000158158778778158000000001730001728005c00564,
  0x3228004c00565,
  0x3243240000000000003238003230005c00566,
  0x324b24b248000000000004c00567,
  0x158158000158158158158158000000000280002408005c00568,
  0x15815800015815a472470158000000000280002468005c00569,
  0x325015815800015815a472470158000000000280002468005c0056a,
  0x325815815800015815a472470158000000000280002468005c0056b,
  0x28042800000000015815815af2815b260158158158000000000000420000006c0056c,
  0x15815800015815a472470158000000002a70003268005c0056d,
  0x15815800015815a472470158000000002a70003268005c0056e,
  0x15815800015815a472470158000000002a70003268005c0056f,
  0x327b278000000000003220003270005c00570,
  0x428002f78004c00571,
  0x15815800328b28b28b28b288000000003280000278005c00572,
  0x42827827827800000000000000000000000000248a48a488000420000004c00573,
  0x428278279058000000000000000000000000003293293290001048000004c00574,
  0x42827827905800000000000000000000000000329b29b298001048000004c00575,
  0x2f180000000000000000000000000032a32a32a0002f08000004c00576,
  0x32b80000000000000000000000000032b32b32b00032a8000004c00577,
  0x32c32c32cb2c32c32cb2c32c32c0000000000000000000006c00578,
  0x32d0005c00579,
  0x328002ae0004012d7a,
  0x328002b00004012d7b,
  0x24a0000000000000000000000000000000000000000000005c0057c,
  0x32e80000000000000000000000000032e32e32e00032d8000004c0057d,
  0x32f0005c0057e,
  0x280428000000000158158159ed015b2f8158158158000000000000420000006c0057f,
  0x15815800015815a57a578158000000001df0003300005c00580,
  0x15815800015815a57a578158000000001df0003300005c00581,
  0x15815800015815a57a578158000000001df0003300005c00582,
  0x2fd2fd0000000000002568003308005c00583,
  0x328003310004244c43,
  0x32b313313310000000000000000000000000002b9ab9ab98003318000004245444,
  0x33200a00033200a33200a33200000000001a8002b80005245c45,
  0x25a25980004d84884d84884d80000000001a80025a8005246584,
  0x32b0230230200000000000000000000000000025ca5ca5c8003328000004246c46,
  0x328003020004247447,
  0x25ba5c80025ba5ca5ba5ca5b80000000001a80001c0005247c48,
  0x328003330004248449,
  0x32b333333330000000000000000000000000002bdabdabd8003338000004248c4a,
  0x33400a00033400a33400a33400000000001a8002bc000524944b,
  0x3291a11a11a00000000000000000000000000025e25e25e0002590000004249b0d,
  0x4d82b80004d82b84d82b84d80000000001a80025e800524a30e,
  0x4d84880004d84884d84884d80000000001a80025e800524a30f,
  0x8300a00008300a08300a08300000000001a80025e800524a310,
  0x122123800122123b35b35122000000000147000334800524ad85,
  0x122126000122126335b36122000000000147000334800524b586,
  0x1220cb0001220cb26025f922000000000147000336800524bd87,
  0x32800337000424d588,
  0x32b373373370000000000000000000000000002c22c22c2000337800000424dd89,
  0x33800a00033800a33800a33800000000001a8002c0800524e58a,
  0x3298d98d98d80000000000000000000000000030b30b30b0001f6800000424ed8b,
  0x261a6100012212392212392200000000001a800262000524f58c,
  0x1220cb0001220cb1220cb1220000000001c1000126800524fd8d,
  0x32b0bb0bb0b800000000000000000000000000264264264000338800000425058e,
  0x3280030b8004250d8f,
  0x26326400026326426326426300000000001a80001c0005251590,
  0x328003390004251d91,
  0x32b393393390000000000000000000000000002c72c72c70003398000004252592,
  0x33a00a00033a00a33a00a33a00000000001a8002c58005252d93,
  0x3292012012000000000000000000000000000026626626600033a8000004253471,
  0x1220cb0001220cb1220cb12200000000001a8002668005253c72,
  0x12212380012212392212392200000000001a8002668005254473,
  0x19600a00019600a19600a19600000000001a8002668005254c74,
  0x2cc01581580001581598f98f81580000000002800018f0005c00594,
  0x33b01581580001581598f98f81580000000002800018f0005c00595,
  0x2804280000000033bb3bb3cb3bb3bb3c33bb3bb3b8000000000000420000006c00596,
  0x3288408433d80000000000000000000000000033d33d33d00020b0000004017d97,
  0x4d84b80004d84b84d84b84d80000000001a80033e0005018598,
  0x4d84880004d84884d84884d80000000001a80033e0005018599,
  0x2d100033e8000000000000000000000000000006c0059a,
  0x2782780000000000002778002770005c0059b,
  0x2d08000000000000000000000000002d02d02d00002cf8000004c0059c,
  0x2782780000000000002778002770005c0059d,
  0x328002d280042cfd9e,
  0x328002d480042d059f,
  0x318b18b188000000000004c005a0,
  0x34000000000000000000000000000033fb3fb3f80033f0000004c005a1,
  0x340b40b41340b40b41340b40b408000000000000000000006c005a2,
  0x3418005c005a3,
  0x3420000000005c005a4,
  0x328002da00042d35a5,
  0x328002dc00042d3da6,
  0x2d9800000000000000000000000000342b42b428002d88000004c005a7,
  0x343b438000000000003420003430005c005a8,
  0x328002df00042cfda9,
  0x328002e100042d05aa,
  0x328002e500042d35ab,
  0x328002e700042d3dac,
  0x158158000158159d51d501580000000023f80023f0005c005ad,
  0x2f20158158000158159d71d70158000000000280001d68005c005ae,
  0x3440158158000158159d71d70158000000000280001d68005c005af,
  0x28042800000000344b44b45b44b44b45344b44b448000000000000420000006c005b0,
  0x3200004c005b1,
  0x346b46b46b46b468000000003460000000005c005b2,
  0x320b20b208000000000004c005b3,
  0x2eeaee8000000000000000003470005c005b4,
  0x2e98000000000000002eeaee8000000000000000003470005c005b5,
  0x2a2800000000000000000000000000347b47b478002a18000004c005b6,
  0x348348348b48348348b483483480000000000000000000006c005b7,
  0x324b24b248000000000004c005b8,
  0x34a000000000000000000000000000349b49b498003490000004c005b9,
  0x34ab4ab4b34ab4ab4b34ab4ab4a8000000000000000000006c005ba,
  0x34b8005c005bb,
  0x34c0000000005c005bc,
  0x158158000158158158158158000000000280002a98005c005bd,
  0x2aa0005c005be,
  0x3250158158000158158158158158000000000280000278005c005bf,
  0x42827827aa88000000000000000000000000002a82a82a80002a78000004c005c0,
  0x34d80000000000000000000000000034d34d34d00034c8000004c005c1,
  0x34e0005c005c2,
  0x28042800000000015815815a48815b4e8158158158000000000000420000006c005c3,
  0x15815800015815aab2ab0158000000001dd80034f0005c005c4,
  0x15815800015815aab2ab0158000000001dd80034f0005c005c5,
  0x15815800015815aab2ab0158000000001dd80034f0005c005c6,
  0x35035000000000000034c00034f8005c005c7,
  0x32b8004c005c8,
  0x3513513513513510000000003508000000005c005c9,
  0x32c32c32c0000000000004c005ca,
  0x2faafa8000000000000000003518005c005cb,
  0x1e28000000000000002faafa8000000000000000003518005c005cc,
  0x1820000000000000000000000000003523523520001810000004c005cd,
  0x32e8004c005ce,
  0x3533533533533530000000003528000000005c005cf,
  0x2b42b42b40000000000004c005d0,
  0x182000000000000000000000000000353b53b538001810000004c005d1,
  0x2580158158000158158158158158000000000280000278005c005d2,
  0x42827827ab60000000000000000000000000002b5ab5ab58002b50000004c005d3,
  0x32e80000000000000000000000000032e32e32e00032d8000004c005d4,
  0x32b313313310000000000000000000000000002b9ab9ab980035400000042954f1,
  0x328003310004295cf2,
  0x2b8ab98002b8ab9ab8ab9ab880000000001a80001c00052964f3,
  0x328003020004296cf4,
  0x32b333333330000000000000000000000000002bdabdabd80035480000042974f5,
  0x328003330004297cf6,
  0x2bcabd8002bcabdabcabdabc80000000001a80001c00052984f7,
  0x329201202bf8000000000000000000000000002bf2bf2bf0002608000004298dd5,
  0x1220cb0001220cb1220cb12200000000001a8002c000052995d6,
  0x12212380012212392212392200000000001a8002c00005299dd7,
  0x19600a00019600a19600a19600000000001a8002c0000529a5d8,
  0x329201202bf8000000000000000000000000002bf2bf2bf00011e800000429add9,
  0x32b373373370000000000000000000000000002c22c22c2000355000000429cdda,
  0x32800337000429d5db,
  0x2c12c20002c12c22c12c22c100000000001a80001c000529dddc,
  0x3280030b800429e5dd,
  0x32b393393390000000000000000000000000002c72c72c7000355800000429edde,
  0x32800339000429f5df,
  0x2c62c70002c62c72c62c72c600000000001a80001c000529fde0,
  0x328002c780042a051d,
  0x3560005c005e1,
  0x15815800015815b573570158000000000280003568005c005e2,
  0x357815815800015815b573570158000000000280003568005c005e3,
  0x358015815800015815b573570158000000000280003568005c005e4,
  0x4d82b800358b59358b593588000000000b880004d000502a5e5,
  0x328bb8bb8bb8000000000000000000000000002cd2cd2cd0000ba800000402ade6,
  0x328840840c0000000000000000000000000000359b59b598000bf000000402b5e7,
  0x13e0000000000000000000000000000000000000000000005c005e8,
  0x3400004c005e9,
  0x35ab5ab5ab5ab5a80000000035a0000000005c005ea,
  0x340b40b408000000000004c005eb,
  0x31831800000000000000000035b0005c005ec,
  0x21c00000000000000031831800000000000000000035b0005c005ed,
  0x2d980000000000000000000000000035bb5bb5b8002d88000004c005ee,
  0x35c35c35cb5c35c35cb5c35c35c0000000000000000000006c005ef,
  0x35e35e00000000000035d80035d0005c005f0,
  0x35f80000000000000000000000000035f35f35f00035e8000004c005f1,
  0x3600005c005f2,
  0x3608005c005f3,
  0x15815800015815b61b618158000000000280003610005c005f4,
  0x362015815800015815b61b618158000000000280003610005c005f5,
  0x362815815800015815b61b618158000000000280003610005c005f6,
  0x3208003630000000000000000000000000000006c005f7,
  0x2eeaee8000000000002ee0002ed8005c005f8,
  0x32000000000000000000000000000031fb1fb1f80031f0000004c005f9,
  0x2eeaee8000000000002ee0002ed8005c005fa,
  0x327b278000000000000000003638005c005fb,
  0x325800000000000000327b278000000000000000003638005c005fc,
  0x34a0004c005fd,
  0x364b64b64b64b648000000003640000000005c005fe,
  0x34ab4ab4a8000000000004c005ff,
  0x3243240000000000000000003650005c00600,
  0x2448000000000000003243240000000000000000003650005c00601,
  0x2f1800000000000000000000000000365b65b658002f08000004c00602,
  0x366366366b66366366b663663660000000000000000000006c00603,
  0x34d8004c00604,
  0x367b67b67b67b678000000003670000000005c00605,
  0x3483483480000000000004c00606,
  0x2a28000000000000000000000000003683683680002a18000004c00607,
  0x2ab8158158000158158158158158000000000280000278005c00608,
  0x42827827af78000000000000000000000000002f72f72f70002f68000004c00609,
  0x3698000000000000000000000000003693693690003688000004c0060a,
  0x36a0005c0060b,
  0x32c00036a8000000000000000000000000000006c0060c,
  0x2faafa8000000000002fa0002f98005c0060d,
  0x32b80000000000000000000000000032b32b32b00032a8000004c0060e,
  0x2faafa8000000000002fa0002f98005c0060f,
  0x2b400036b0000000000000000000000000000006c00610,
  0x2fd2fd0000000000002568003308005c00611,
  0x2fd2fd0000000000002568003308005c00612,
  0x3280033100042cfd7a,
  0x3280033300042d057b,
  0x3280033700042d3613,
  0x3280033900042d3e14,
  0x36c80000000000000000000000000036c36c36c00036b8000004c00615,
  0x42827827b6e00000000000000000000000000036db6db6d80036d0000004c00616,
  0x1581580001581581581581580000000002800036e8005c00617,
  0x1581580001581581581581580000000002800036f0005c00618,
  0x36f8005c00619,
  0x4d84880004d848b1337084d80000000010b800370000504e61a,
  0x4d84b80004d84bb1337104d80000000010b800370000504e61b,
  0x4d82b80004d82bb1331284d80000000010b800370000504f61c,
  0x3408003718000000000000000000000000000006c0061d,
  0x3183180000000000003178003170005c0061e,
  0x34000000000000000000000000000033fb3fb3f80033f0000004c0061f,
  0x3183180000000000003178003170005c00620,
  0x343b438000000000000000003720005c00621,
  0x28b000000000000000343b438000000000000000003720005c00622,
  0x3738000000000000000000000000003733733730003728000004c00623,
  0x374374374b74374374b743743740000000000000000000006c00624,
  0x3750005c00625,
  0x35f8004c00626,
  0x3763763763763760000000003758000000005c00627,
  0x35c35c35c0000000000004c00628,
  0x2d9800000000000000000000000000376b76b768002d88000004c00629,
  0x378000000000000000000000000000377b77b778003770000004c0062a,
  0x42827827b798000000000000000000000000003793793790003788000004c0062b,
  0x1581580001581581581581580000000002800037a0005c0062c,
  0x1581580001581581581581580000000002800037a8005c0062d,
  0x37b0005c0062e,
  0x2e98000000000000000000000000000000000000000000005c0062f,
  0x34d80000000000000000000000000034d34d34d00034c8000004c00630,
  0x34a80037b8000000000000000000000000000006c00631,
  0x3243240000000000003238003230005c00632,
  0x34a000000000000000000000000000349b49b498003490000004c00633,
  0x3243240000000000003238003230005c00634,
  0x35035000000000000000000037c0005c00635,
  0x2ac00000000000000035035000000000000000000037c0005c00636,
  0x34800037c8000000000000000000000000000006c00637,
  0x327b278000000000003220003270005c00638,
  0x327b278000000000003220003270005c00639,
  0x3698004c0063a,
  0x37db7db7db7db7d80000000037d0000000005c0063b,
  0x3663663660000000000004c0063c,
  0x2f180000000000000000000000000037e37e37e0002f08000004c0063d,
  0x1e28000000000000000000000000000000000000000000005c0063e,
  0x2588000000000000000000000000000000000000000000005c0063f,
  0x37e8004c00640,
  0x38038000000000000037f80037f0005c00641,
  0x380b80b808000000000004c00642,
  0x4280036e0004c00643,
  0x15815800381b81b81b81b818000000003810000278005c00644,
  0x4282782782780000000000000000000000000033bb3bb3b8000420000004c00645,
  0x42827827a680000000000000000000000000003823823820002670000004c00646,
  0x42827827a68000000000000000000000000000382b82b828002670000004c00647,
  0x36c80000000000000000000000000038338338300036b8000004c00648,
  0x3288408433d80000000000000000000000000033d33d33d00020b0000004087649,
  0x4d82b80004d82b84d82b84d80000000001a80033e000501864a,
  0x8300a00008300a08300a08300000000001a80033e000501864b,
  0x21c0000000000000000000000000000000000000000000005c0064c,
  0x35f80000000000000000000000000035f35f35f00035e8000004c0064d,
  0x3738004c0064e,
  0x3843843843843840000000003838000000005c0064f,
  0x3743743740000000000004c00650,
  0x35e35e0000000000000000003848005c00651,
  0x2de00000000000000035e35e0000000000000000003848005c00652,
  0x2d98000000000000000000000000003853853850002d88000004c00653,
  0x35c0003858000000000000000000000000000006c00654,
  0x343b438000000000003420003430005c00655,
  0x343b438000000000003420003430005c00656,
  0x3860004c00657,
  0x387b878000000000003870003868005c00658,
  0x3883883880000000000004c00659,
  0x428003798004c0065a,
  0x158158003893893893893890000000003888000278005c0065b,
  0x42827827827800000000000000000000000000344b44b448000420000004c0065c,
  0x42827827aa1000000000000000000000000000389b89b898002a00000004c0065d,
  0x42827827aa100000000000000000000000000038a38a38a0002a00000004c0065e,
  0x37800000000000000000000000000038ab8ab8a8003770000004c0065f,
  0x2448000000000000000000000000000000000000000000005c00660,
  0x3698000000000000000000000000003693693690003688000004c00661,
  0x3258000000000000000000000000000000000000000000005c00662,
  0x36600038b0000000000000000000000000000006c00663,
  0x35035000000000000034c00034f8005c00664,
  0x35035000000000000034c00034f8005c00665,
  0x380b80b808000000000004c00666,
  0x38c80000000000000000000000000038c38c38c00038b8000004c00667,
  0x38d38d38db8d38d38db8d38d38d0000000000000000000006c00668,
  0x38e0005c00669,
  0x38e8000000005c0066a,
  0x28042800000000015815815b3b815b8f0158158158000000000000420000006c0066b,
  0x15815800015815b5735701580000000031180038f8005c0066c,
  0x15815800015815b5735701580000000031180038f8005c0066d,
  0x15815800015815b5735701580000000031180038f8005c0066e,
  0x390b9080000000000038e8003900005c0066f,
  0x3740003910000000000000000000000000000006c00670,
  0x35e35e00000000000035d80035d0005c00671,
  0x3738000000000000000000000000003733733730003728000004c00672,
  0x35e35e00000000000035d80035d0005c00673,
  0x28b0000000000000000000000000000000000000000000005c00674,
  0x3883883880000000000004c00675,
  0x3928000000000000000000000000003923923920003918000004c00676,
  0x393393393b93393393b933933930000000000000000000006c00677,
  0x3940005c00678,
  0x3948000000005c00679,
  0x28042800000000015815815b44815b950158158158000000000000420000006c0067a,
  0x15815800015815b61b6181580000000031e8003958005c0067b,
  0x15815800015815b61b6181580000000031e8003958005c0067c,
  0x15815800015815b61b6181580000000031e8003958005c0067d,
  0x396b968000000000003948003960005c0067e,
  0x2ac0000000000000000000000000000000000000000000005c0067f,
  0x38c8004c00680,
  0x397b97b97b97b978000000003970000000005c00681,
  0x38d38d38d0000000000004c00682,
  0x3803800000000000000000003980005c00683,
  0x33b0000000000000003803800000000000000000003980005c00684,
  0x36c800000000000000000000000000398b98b9880036b8000004c00685,
  0x399399399b99399399b993993990000000000000000000006c00686,
  0x3578158158000158158158158158000000000280000278005c00687,
  0x42827827b6e00000000000000000000000000036db6db6d80036d0000004c00688,
  0x39b00000000000000000000000000039ab9ab9a80039a0000004c00689,
  0x39b8005c0068a,
  0x2de0000000000000000000000000000000000000000000005c0068b,
  0x3928004c0068c,
  0x39cb9cb9cb9cb9c80000000039c0000000005c0068d,
  0x3933933930000000000004c0068e,
  0x387b8780000000000000000039d0005c0068f,
  0x344000000000000000387b8780000000000000000039d0005c00690,
  0x37800000000000000000000000000039db9db9d8003770000004c00691,
  0x39e39e39eb9e39e39eb9e39e39e0000000000000000000006c00692,
  0x3620158158000158158158158158000000000280000278005c00693,
  0x42827827b798000000000000000000000000003793793790003788000004c00694,
  0x3a000000000000000000000000000039fb9fb9f80039f0000004c00695,
  0x3a08005c00696,
  0x38d0003a10000000000000000000000000000006c00697,
  0x38038000000000000037f80037f0005c00698,
  0x38c80000000000000000000000000038c38c38c00038b8000004c00699,
  0x38038000000000000037f80037f0005c0069a,
  0x390b908000000000000000003a18005c0069b,
  0x358000000000000000390b908000000000000000003a18005c0069c,
  0x39b0004c0069d,
  0x3a2ba2ba2ba2ba28000000003a20000000005c0069e,
  0x3993993990000000000004c0069f,
  0x36c8000000000000000000000000003a33a33a300036b8000004c006a0,
  0x3930003a38000000000000000000000000000006c006a1,
  0x387b878000000000003870003868005c006a2,
  0x3928000000000000000000000000003923923920003918000004c006a3,
  0x387b878000000000003870003868005c006a4,
  0x396b968000000000000000003a40005c006a5,
  0x362800000000000000396b968000000000000000003a40005c006a6,
  0x3a00004c006a7,
  0x3a53a53a53a53a50000000003a48000000005c006a8,
  0x39e39e39e0000000000004c006a9,
  0x3780000000000000000000000000003a5ba5ba58003770000004c006aa,
  0x33b0000000000000000000000000000000000000000000005c006ab,
  0x39b00000000000000000000000000039ab9ab9a80039a0000004c006ac,
  0x3990003a60000000000000000000000000000006c006ad,
  0x390b9080000000000038e8003900005c006ae,
  0x390b9080000000000038e8003900005c006af,
  0x3440000000000000000000000000000000000000000000005c006b0,
  0x3a000000000000000000000000000039fb9fb9f80039f0000004c006b1,
  0x39e0003a68000000000000000000000000000006c006b2,
  0x396b968000000000003948003960005c006b3,
  0x396b968000000000003948003960005c006b4,
  0x3580000000000000000000000000000000000000000000005c006b5,
  0x3628000000000000000000000000000000000000000000005c006b6]

/-- The states that are reached. -/
def cmavoStates : List Nat :=
  cmavoStates0 ++ cmavoStates1 ++ cmavoStates2 ++ cmavoStates3

end Jbo.Morf
