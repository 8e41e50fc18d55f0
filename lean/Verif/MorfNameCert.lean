import Verif.MorfFe
/-!
# States of the name automaton

The states that the automaton of `MorfName` reaches, with their successors; the kernel checks them.
-/

namespace Jbo.Morf
set_option maxRecDepth 100000

def nameStates0 : List Nat := [
  0x500801001800004000000,
  0x600b01402400000000000000000000000000800e01c00006000001001,
  0x3c0000000000000000000000000000000000000e01c0380000d000001802,
  0xe01c0000901202604c0900000000008800020000803,
  0xe01c0000901202a0500900000000008800020000804,
  0x6000012002005,
  0x1b0340000b01903005c0b00000000008800020000806,
  0x1b0340000b01903a0700b00000000008800020000807,
  0x602004007c00000000000000000000000000800e01c0001e000001008,
  0x602004008000000000000000000000000002304408800021000001009,
  0x60200400800000000000000000000000000240480900002100000100a,
  0x600c01803000000000000000000000000000e01c0380002500000100b,
  0x1300000000200c,
  0xe01c0000700e01c038070000000001380001800080d,
  0x3c000000000000000000000000000000000000000000000000000000280e,
  0x602c0580ac00000000000000000000000002a0520a40002800000100f,
  0xc0178000000001682d05a0b41682e05a0b41680000000000025000001810,
  0xe01c0000700e0640c80700000000013800062000811,
  0xe01c0000700e0640c80700000000013800066000812,
  0xe01c0000700e06c0d40700000000013800068000813,
  0xe01c0000700e0640c80700000000013800068000814,
  0x1b0740000d83a0720e00d8000000001380006e000815,
  0x1b07a0000d83d0720f00d80000000013800076000816,
  0x1b0740000d83a0720e00d80000000013800076000817,
  0x1b07a0000d83d0720f00d8000000001380006e000818,
  0x1b07a0000d83d0360f40d8000000001380007c000819,
  0x1b0740000d83a0360e80d8000000001380007c00081a,
  0x1b07a0000d83d0821000d8000000001380007e00081b,
  0x1b0740000d83a0720e00d8000000001380007e00081c,
  0x600003e00201d,
  0x600c01810c00000000000000000000000000800e01c0004200000101e,
  0x600c0180300000000000000000000000000240480900002500000101f,
  0x6000040002020,
  0x1b0340000b01903005c0b00000000013800020000821,
  0x1b0340000b01903a0700b00000000013800020000822,
  0x1b0340000d81a0360680d80000000013800018000823,
  0x6000018002024,
  0x1025,
  0xc0178000000000700e01c0380704401c0380700000000000025000001826,
  0x600008a002027,
  0x4c0960002384a0921202380000000023000020000828,
  0x4c0960002384a09c1342380000000023000020000829,
  0x600c01810c0000000000000000000000000510a013c0004200000102a,
  0x600c0180300000000000000000000000000540a61480002500000102b,
  0xe01c0000700e01c038070000000000880001800082c,
  0x700e01c0000700e01c038070000000000880001800082d,
  0x1782f05e0bc0000000000000000000000000560ac1580005500000280b,
  0xc0178000000002b0560ac1582b0570ac1582b00000000000055000002826,
  0x600c0181680000000000000000000000000590b21640005800000102e,
  0xe01c0000700e01c03807000000000138000b600082f,
  0x600c01816800000000000000000000000005c0b817000058000001030,
  0x60600c017c00000000000000000000000005e0bc1780005d000001031,
  0xe01c0000700e0c403807000000000138000c2000832,
  0xe01c0000700e0c603807000000000138000c2000833,
  0x60670ce1980000000000000000000000000650ca19400064000001034,
  0x1b0340000d81a0360680d800000000138000d0000835,
  0x1b0740000d83a0360e80d800000000138000d0000836,
  0x1b0340000d81a0360680d8000000001380007c000837,
  0x60670ce1980000000000000000000000000690d21a400064000001038,
  0x6a01c0003500e0d403835000000000138000d0000839,
  0x6a01c0003500e0d4038350000000001380007c00083a,
  0x60670ce19c00000000000000000000000003a0740e80006b00000103b,
  0x606f0de1b800000000000000000000000006d0da1b40006c00000103c,
  0x6a01c0003500e0e203835000000000138000e000083d,
  0x1b0740000d83a0e40e80d800000000138000e000083e,
  0x600008600203f,
  0x600c01810c00000000000000000000000000500801000042000001040,
  0x700e01c0000700e01c0380700000000013800018000841,
  0x600c01810c0000000000000000000000000750e81cc00042000001042,
  0xc0178000000001682d05a1e0168770ec1d81680000000000025000001843,
  0x800fe0003d87e0fa1f03d8000000003d0000f2000844,
  0x7b1080003d8841062083d8000000003d000102000845,
  0x800fe0003d87e1062143d8000000003d000102000846,
  0x7b1080003d8840fa2183d8000000003d0000f2000847,
  0x8810800044084110210440000000001380010e000848,
  0x890fe0004407e1101f8440000000001380010e000849,
  0x7b1080003d88411822c3d8000000003d00011400084a,
  0x800fe0003d87e1062143d8000000003d00011400084b,
  0x880960004889011e238468000000000880002000084c,
  0x880960004b09512824c490000000000880002000084d,
  0x880960004b09513025c4b0000000000880002000084e,
  0x880960004c89c1362684c8000000001380001800084f,
  0x880960004404b13e2784e80000000013800018000850,
  0x880960004404b13e2784400000000013800018000851,
  0x1780005e002824,
  0x560ac0002b0560ac1582b0000000001800005e00280d,
  0x2b0560ac0002b0560ac1582b0000000001800005e002841,
  0x60000b4002052,
  0xe01c000508a11422845080000000050000018000853,
  0x600c0180300000000000000000000000000a214428800025000001054,
  0x600c0180300000000000000000000000000a314628c00025000001055,
  0xe01c000508a114a2945080000000050000148000856,
  0x600014c002057,
  0xae15a000548ac1562a8548000000005400014e000858,
  0x60b11622c40000000000000000000000000b01602c0000af000001059,
  0x60b11622c40000000000000000000000000b21642c8000af00000105a,
  0x60600c01800000000000000000000000000b41682d0000b300000105b,
  0xe01c0000700e0c6038070000000001380001800085c,
  0xe01c0000700e01c038070000000001380016a00085d,
  0x600016c00205e,
  0x1b0340005b8b816e2e05b8000000005000007c00085f,
  0x60bb1762ec0000000000000000000000000ba1742e8000b9000001060,
  0x60bb1762ec00000000000000000000000003a0740e8000b9000001061,
  0x60670ce19c0000000000000000000000000bc1782f00006b000001062,
  0x1b0340005b8b817e2f85b8000000005000017a000863,
  0x1b0740000d83a0360e80d80000000013800018000864,
  0x6000176002065,
  0x6000180002066,
  0xc718c000610c518830c6100000000054000182000867,
  0x60ca1943280000000000000000000000000c9192324000c8000001068,
  0x60ca1943280000000000000000000000000cb19632c000c8000001069,
  0x606f0de1bc0000000000000000000000000cd19a334000cc00000106a,
  0x1b0740000d83a0e40e80d8000000001380001800086b,
  0x1b0740000d83a0360e80d8000000001380019c00086c,
  0x88096000488901a033c468000000000880002000086d,
  0x880960004b0951a4344490000000000880002000086e,
  0x880960004b0951a834c4b0000000000880002000086f,
  0xe01c0000700e1ac35807000000000088001aa000870,
  0x6b80e01c0000700e01c0380700000000008800018000871,
  0xe01c0000700e1b236407000000000088001b0000872,
  0x60dd1ba3700000000000000000000000000db1b636c000da000001073,
  0xc0178000000006f0de1c03786f0df1bc3786f00000000000025000001874,
  0xe21c20004407e1101f8440000000001380010e000875,
  0x880960004404b11012c44000000000138001c6000876,
  0xe21c20004407e1101f844000000000138001c6000877,
  0x880960004404b11012c440000000001380010e000878,
  0xe51cc000728e61ca39872800000000138001c8000879,
  0xe91d0000728e71ca39c72800000000138001c800087a,
  0x60dd1ba3ac0000000000000000000000000ea1d43a8000da00000107b,
  0xed01c0007680e1da03876800000000138001d800087c,
  0xe21c20004407e1101f844000000000138001d800087d,
  0xed01c0007680e1da038768000000001380010e00087e,
  0x880960004404b11012c44000000000138001d800087f,
  0xed01c0007680e1da03876800000000138001c6000880,
  0x60ef1de3bc00000000000000000000000007e0fc1f8000ee000001081,
  0x880fc0004407e1101f8440000000001380010e000882,
  0xe51ce000728e71ca39c72800000000138001c8000883,
  0x60f31e63c80000000000000000000000000f11e23c4000f0000001084,
  0xed01c0007680e1ea03876800000000138001e8000885,
  0xe21c20004407e1ec1f844000000000138001e8000886,
  0x880fc0004407e1f23e044000000000138001ee000887,
  0x88108000440841f23ec44000000000138001f4000888,
  0x880fc0004407e1f23e044000000000138001f4000889,
  0x88108000440841fc3f444000000000138001f800088a,
  0x880fc0004407e1fc3fc44000000000138001f800088b,
  0x880fc0004407e204404440000000001380020000088c,
  0x881080004408420a410440000000001380020600088d,
  0x880fc0004407e20a418440000000001380020600088e,
  0x881080004408420a410440000000001380020e00088f,
  0x880fc0004407e20a418440000000001380020e000890,
  0x88108000440842144244400000000013800210000891,
  0x880fc0004407e20a4184400000000013800210000892,
  0x880fc0004407e21a4304400000000013800216000893,
  0x881080004408421a43c440000000001380021c000894,
  0x880fc0004407e21a430440000000001380021c000895,
  0x881080004408421a43c4400000000013800216000896,
  0x880fc0004407e1101f84400000000013800220000897,
  0x88108000440841102104400000000013800222000898,
  0x880fc0004407e1101f84400000000013800222000899,
  0xc0178000000000700e01c2880711201c038070000000000002500000189a,
  0xe01c0000700e0640c8070000000008a00022600089b,
  0xe01c0000700e0640c8070000000001380006200089c,
  0xe01c0000700e0640c8070000000008a00022600089d,
  0x611823045c00000000000000000000000011622c4580011500000109e,
  0xe01c0000700e0640c8070000000008a00023200089f,
  0x60b11622c40000000000000000000000000b01602c00011a0000010a0,
  0x611e23c47400000000000000000000000011c2384700011b0000010a1,
  0xc0178000000000700e01c4848f92023e47c8f800000000000250000018a2,
  0x12724c000918b224a490918000000008a0002440008a3,
  0x1232540009192a24a4a4918000000008a0002500008a4,
  0x12724c000918b224a490918000000008a0002500008a5,
  0x1232540009192a24a4a4918000000008a0002440008a6,
  0x1232540009192a2464a891800000000138002560008a7,
  0x12724c000918b22462c891800000000138002560008a8,
  0x60001620020a9,
  0x12315a000918ad24a4b891800000000968002580008aa,
  0x60b11622c40000000000000000000000000b21642c80011a0000010ab,
  0x12315a000918ad2462b491800000000138002560008ac,
  0x60001620020ad,
  0x12315a000918ad24a4b8918000000008a0002440008ae,
  0x60600c01800000000000000000000000000b21642c8000b30000010af,
  0x60bb1762ec0000000000000000000000000ba1742e80012f0000010b0,
  0x1b0740000d83a0720e00d8000000008a0002600008b1,
  0x1b07a0000d83d0720f00d8000000008a0002600008b2,
  0x60001760020b3,
  0x1b0340000d81a0724c40d8000000001380006e0008b4,
  0x60bb1762ec00000000000000000000000003a0740e80012f0000010b5,
  0x1b0340000d81a0724c40d8000000008a0002600008b6,
  0x613526a4d00000000000000000000000001332664cc001320000010b7,
  0x1b07a0000d83d0720f00d8000000008a00026c0008b8,
  0x1b0740000d83a0720e00d8000000008a00026c0008b9,
  0x60ca1943280000000000000000000000000c9192324001370000010ba,
  0x613b2764e80000000000000000000000001392724e4001380000010bb,
  0x1412800009e8cb27e4f89e8000000008a0002780008bc,
  0x13d2880009e94427e50c9e8000000008a0002840008bd,
  0x1412800009e8cb27e4f89e8000000008a0002840008be,
  0x13d2880009e94427e50c9e8000000008a0002780008bf,
  0x13d2880009e94427a5109e8000000001380028a0008c0,
  0x1412800009e8cb27a32c9e8000000001380028a0008c1,
  0x60001940020c2,
  0x13d18c0009e8c627e51c9e8000000009680028c0008c3,
  0x60ca1943280000000000000000000000000cb19632c001370000010c4,
  0x13d18c0009e8c627a3189e8000000001380028a0008c5,
  0x60001940020c6,
  0x13d18c0009e8c627e51c9e8000000008a0002780008c7,
  0x606f0de1bc0000000000000000000000000cb19632c000cc0000010c8,
  0x88108000440841f23ec44000000000138001f40008c9,
  0x880fc0004407e1f23e044000000000138001f40008ca,
  0x881080004408420a41044000000000138002060008cb,
  0x880fc0004407e20a41844000000000138002060008cc,
  0x881080004408421442444000000000138002100008cd,
  0x880fc0004407e20a41844000000000138002100008ce,
  0x600c018528000000000000000000000000149292524001480000010cf,
  0xe01c0000700e01c03807000000000138002960008d0,
  0xe01c0000700e01c03807000000000138002980008d1,
  0x600c01853c00000000000000000000000014e29c5380014d0000010d2,
  0xe01c0000700e01c03807000000000138002a00008d3,
  0x60002a20020d4,
  0x155096000a99542a6550a9800000000a900010e0008d5,
  0x61582b05600000000000000000000000001572ae55c001560000010d6,
  0x61582b05600000000000000000000000001592b2564001560000010d7,
  0xe01c0000700e1b236407000000000138001b00008d8,
  0x6b80e01c0000700e1b236407000000000138001b00008d9,
  0xad00e01c0000700e1b236407000000000138001b00008da,
  0x15c2ba000ae15d2b8574ae000000000138002b60008db,
  0x15c2bc000ae15e2b8578ae000000000138002b60008dc,
  0x60ef1de5840000000000000000000000001602c05800015f0000010dd,
  0x61632c658c0000000000000000000000000e71ce39c001620000010de,
  0xe51ce000728e71ca39c72800000000138001c80008df,
  0xe52c8000729641ca59072800000000138001c80008e0,
  0xe51cc000728e61ca39872800000000138001c80008e1,
  0x1662ce000b31672cc59cb3000000000138002ca0008e2,
  0x1662d0000b31682cc5a0b3000000000138002ca0008e3,
  0x88096000b516d2d85acb5000000000a90002d20008e4,
  0x61582b056000000000000000000000000016e2dc5b8001560000010e5,
  0x60ef1de58400000000000000000000000016f2de5bc0015f0000010e6,
  0x880fc0004407e1101f844000000000138000180008e7,
  0x60002b00020e8,
  0x61582b056000000000000000000000000007e0fc1f8001560000010e9,
  0x60002e00020ea,
  0x1782ee000b99762ea5d0b9800000000b90002e20008eb,
  0x617b2f65ec00000000000000000000000017a2f45e8001790000010ec,
  0x617b2f65ec00000000000000000000000017c2f85f0001790000010ed,
  0x61803005fc00000000000000000000000017e2fc5f80017d0000010ee,
  0x880fc0004407e1ec1f844000000000138000180008ef,
  0x880fc0004407e1101f844000000000138003020008f0,
  0x60dd1ba61000000000000000000000000018330660c001820000010f1,
  0x880960004404b11012c440000000001380030a0008f2,
  0x880fc0004407e1101f8440000000001380030a0008f3,
  0x60dd1ba61000000000000000000000000018630c618001820000010f4,
  0xed01c0007680e1da038768000000001380030a0008f5,
  0x60dd1ba370000000000000000000000000188310620001870000010f6,
  0xed01c0007680e1da03876800000000138003120008f7,
  0x880fc0004407e1101f844000000000138003120008f8,
  0x880960004404b11012c44000000000138003120008f9,
  0x60dd1ba3700000000000000000000000001883106200018a0000010fa,
  0x880960004404b11012c44000000000138003160008fb,
  0x880fc0004407e1101f844000000000138003160008fc,
  0x60ef1de63800000000000000000000000018d31a6340018c0000010fd,
  0xed01c0007680e1da038768000000001380031e0008fe,
  0x880fc0004407e1101f8440000000001380031e0008ff,
  0x880960004404b11012c440000000001380031e000900,
  0x60ef1de6380000000000000000000000001903206400018c000001101,
  0x618030064c00000000000000000000000019232464800191000001102,
  0xed01c0007680e1ea0387680000000013800328000903,
  0x880fc0004407e1ec1f84400000000013800328000904,
  0x60dd1ba37400000000000000000000000019632c65800195000001105,
  0x880960004404b11012c440000000001380032e000906,
  0x880fc0004407e1101f8440000000001380032e000907,
  0x60dd1ba37400000000000000000000000019632c65800195000001108,
  0xed01c0007680e1da038768000000001380032e000909,
  0x60dd1ba37400000000000000000000000019632c6580019800000110a,
  0x60ef1de3bc00000000000000000000000007e0fc1f8000ee00000110b,
  0xcc80e01c0000700e01c038070000000001380001800090c,
  0x600c0181680000000000000000000000000590b21640005800000110d,
  0xc017800000000510a23362885119a144288510000000000002500000190e,
  0x600023000210f,
  0x19e01c000ce19d338674ce00000000013800018000910,
  0x600c01803000000000000000000000000019f33e67c00025000001111,
  0x600c0180300000000000000000000000001a034068000025000001112,
  0x600c0181680000000000000000000000001a134268400058000001113,
  0x6000162002114,
  0x6000344002115,
  0x1a615a000d21a5348694d2000000000d1800256000916,
  0x61a93526a40000000000000000000000001a83506a0001a7000001117,
  0x61a93526a40000000000000000000000001aa3546a8001a7000001118,
  0xe01c0000700e3586b00700000000013800356000919,
  0xd680e01c0000700e3586b0070000000001380035600091a,
  0xe01c0000700e35e6bc070000000001380035c00091b,
  0x61b33666c80000000000000000000000001b13626c4001b000000111c,
  0x123164000918b22462c8918000000001380025600091d,
  0x12315a000918ad2462b4918000000001380036800091e,
  0x123164000918b22462c8918000000001380036800091f,
  0x1b636e000db1b736c6dcdb0000000001380036a000920,
  0x1b6370000db1b836c6e0db0000000001380036a000921,
  0x61b33666ec0000000000000000000000001ba3746e8001b9000001122,
  0x1bc01c000de00e378038de00000000013800368000923,
  0x1bc01c000de00e378038de00000000013800256000924,
  0x61b33666cc0000000000000000000000000b21642c8001bd000001125,
  0x61b33666c80000000000000000000000001b13626c4001b0000001126,
  0xc0178000000000700e01c6f8df1bf37c6f8df00000000000025000001927,
  0x1232540009192a2464a89180000000013800368000928,
  0x6000176002129,
  0x60670ce1980000000000000000000000000650ca1940006400000112a,
  0x1b07a0000d83d0360f40d800000000138000d000092b,
  0x600038000212c,
  0x1c3034000e09c2382708e08000000001380007c00092d,
  0x60bb1762ec0000000000000000000000001c4388710000b900000112e,
  0x60bb1762ec0000000000000000000000001c538a714000b900000112f,
  0x60670ce1980000000000000000000000001c638c71800064000001130,
  0x6000194002131,
  0x600038e002132,
  0x1ca18c000e41c9390724e4000000000d180028a000933,
  0x61cd39a7340000000000000000000000001cc398730001cb000001134,
  0x61cd39a7340000000000000000000000001ce39c738001cb000001135,
  0x61d23a47440000000000000000000000001d03a0740001cf000001136,
  0x13d1960009e8cb27a32c9e8000000001380028a000937,
  0x13d18c0009e8c627a3189e800000000138003a6000938,
  0x13d1960009e8cb27a32c9e800000000138003a6000939,
  0x1d53ac000ea9d63aa758ea800000000138003a800093a,
  0x1d53ae000ea9d73aa75cea800000000138003a800093b,
  0x61d23a47680000000000000000000000001d93b2764001d800000113c,
  0x1db01c000ed80e3b6038ed800000000138003a600093d,
  0x1db01c000ed80e3b6038ed8000000001380028a00093e,
  0x61d23a47480000000000000000000000000cb19632c001dc00000113f,
  0x61d23a47440000000000000000000000001d03a0740001cf000001140,
  0x13d2880009e94427a5109e800000000138003a6000941,
  0x60003ba002142,
  0xe01c000f01e03c2784f0000000000ef8003bc000943,
  0x600c0180300000000000000000000000001e23c478800025000001144,
  0x600c0187940000000000000000000000001e43c8790001e3000001145,
  0x600c0187a00000000000000000000000001e73ce79c001e6000001146,
  0x600029e002147,
  0xe01c000f51ea3d47a8f5000000000f4800018000948,
  0x600c0180300000000000000000000000001eb3d67ac00025000001149,
  0x600c0187a00000000000000000000000001ec3d87b0001e600000114a,
  0x61582b056000000000000000000000000016e2dc5b8001ed00000114b,
  0xc0178000000000700e01c7bc071ee01c038070000000000002500000194c,
  0x1f53e8000f907e3e61f0f9000000000f88003e000094d,
  0x1f2108000f90843e6218f9000000000f88003e000094e,
  0x1f63e80004407e1101f8440000000001380010e00094f,
  0x60002b0002150,
  0x880960004404b3f27e044000000000138003ee000951,
  0x61582b056000000000000000000000000007e0fc1f8001ed000001152,
  0x880960004404b3f87ec44000000000138003f4000953,
  0x3fa000954,
  0x61ff3fe7fc00000000000000000000000015e2bc578001fe000001155,
  0x15c2bc000ae15e2b8578ae000000000138002b6000956,
  0x15c400000ae2002b8800ae000000000138002b6000957,
  0x15c2ba000ae15d2b8574ae000000000138002b6000958,
  0x6000402002159,
  0x1f2096000f904b4067e0f9000000000f880040400095a,
  0x61582b05600000000000000000000000002044088100015600000115b,
  0x600040a00215c,
  0x620540a8140000000000000000000000000e71ce39c0020600000115d,
  0x20701c0010380e40e03903800000000138001c800095e,
  0x62094128240000000000000000000000001682d05a00020800000115f,
  0x1662d0000b31682cc5a0b3000000000138002ca000960,
  0x166414000b320a2cc828b3000000000138002ca000961,
  0x1662ce000b31672cc59cb3000000000138002ca000962,
  0x60dd1ba83400000000000000000000000020c4188300020b000001163,
  0x880fc0004407e41e21444000000000f880041c000964,
  0x881080004408441e20844000000000f8800420000965,
  0x880fc0004407e41e21444000000000f8800420000966,
  0x881080004408441e20844000000000f880041c000967,
  0x880960004404b4268484400000000013800422000968,
  0x880960004404b42684844000000000f8800428000969,
  0x617b2f65ec00000000000000000000000017a2f45e80021500000116a,
  0x621943286000000000000000000000000021742e85c0021600000116b,
  0xc0178000000000700e01c86c8fa1a23e47c8f8000000000002500000196c,
  0x2224420010ea2043e8790e800000000f880043800096d,
  0x21d44a0010ea2543e8910e800000000f880044600096e,
  0x2224420010ea2043e8790e800000000f880044600096f,
  0x21d44a0010ea2543e8910e800000000f8800438000970,
  0x21d44a0010ea2543a8950e8000000001380044c000971,
  0x2224420010ea2043a8810e8000000001380044c000972,
  0x60002f6002173,
  0x21d2ee0010e9774528a10e8000000009680044e000974,
  0x617b2f65ec00000000000000000000000022044088000215000001175,
  0x21d2ee0010e9774588ad0e80000000013800454000976,
  0x600045a002177,
  0x21d2ee0010e9774528a10e800000000f880045c000978,
  0x617b2f65ec00000000000000000000000022f45e8bc00179000001179,
  0x617b2f65ec0000000000000000000000002204408800017900000117a,
  0x61803006000000000000000000000000002204408800023000000117b,
  0x600046200217c,
  0x88096001192334648cd190000000005000010e00097d,
  0x61582b05600000000000000000000000002344688d00015600000117e,
  0x60ef1de3bc00000000000000000000000023546a8d4000ee00000117f,
  0x880960011923346e8d919000000000500002d2000980,
  0x60002a2002181,
  0x1550960011c2394708e51c000000000a900010e000982,
  0x60ef1de58400000000000000000000000023a4748e80015f000001183,
  0x60002a2002184,
  0x60ef1de58400000000000000000000000023b4768ec0015f000001185,
  0x6000478002186,
  0x880960011ea4047e8f91e800000000500002d2000987,
  0x61582b056000000000000000000000000024148290400156000001188,
  0x60ef1de3bc000000000000000000000000242484908000ee000001189,
  0x880960011ea4047a9011e8000000005000010e00098a,
  0x600048600218b,
  0x1782ee0012224748c91522000000000540002e200098c,
  0x617b2f65ec0000000000000000000000002484909200017900000118d,
  0x61803006000000000000000000000000002494929240023000000118e,
  0x600049400218f,
  0x8809600125a4c496931258000000001380010e000990,
  0x60ef1de3bc0000000000000000000000001592b2564000ee000001191,
  0x6000494002192,
  0xe01c0000700e01c038070000000001380049a000993,
  0xcc80e01c0000700e0640c80700000000013800062000994,
  0x12700e01c0000700e0640c80700000000013800062000995,
  0x2544a60012800e4a4945280000000001380049e000996,
  0x25001c0012800e4a4945280000000001380049e000997,
  0x2554a60000700e01c0380700000000013800018000998,
  0xe01c0000700e4ac9580700000000013800148000999,
  0xe01c0000700e4b096007000000000138004ae00099a,
  0x25001c0012c8a14b42952c8000000005000014800099b,
  0x61a93526a400000000000000000000000025c4b89700025b00000119c,
  0xc0178000000000700e01c9780725d01c038070000000000002500000199d,
  0x2654c8001308b24c698930800000001300004be00099e,
  0x2612540013092a4c699930800000001300004be00099f,
  0x2674c8000918b22462c891800000000138002560009a0,
  0x60003520021a1,
  0x12315a000918ad4d49a491800000000138004d00009a2,
  0x61a93526a40000000000000000000000000b21642c80025b0000011a3,
  0x12315a000918ad4da9b091800000000138004d60009a4,
  0x600c0189c000000000000000000000000026f4de9bc0026e0000011a5,
  0xe01c0000700e01c03807000000000138004e20009a6,
  0xe01c0000700e01c03807000000000138004e40009a7,
  0x600c0189d40000000000000000000000002744e89d0002730000011a8,
  0xe01c0000700e01c03807000000000138004ec0009a9,
  0x60004ee0021aa,
  0x12315a0013c0ac4f02b13c000000000500002560009ab,
  0x61a93526a40000000000000000000000002794f29e4001a70000011ac,
  0x61a93526a40000000000000000000000000b21642c8001a70000011ad,
  0x61b33666cc0000000000000000000000000b41682d0001bd0000011ae,
  0x627b4f69ec0000000000000000000000001b83706e00027a0000011af,
  0x1b6370000db1b836c6e0db0000000001380036a0009b0,
  0x1b64f8000db27c36c9f0db0000000001380036a0009b1,
  0x1b636e000db1b736c6dcdb0000000001380036a0009b2,
  0x60004fa0021b3,
  0x26115a001400ac5022a9400000000013f8004fc0009b4,
  0x61a93526a4000000000000000000000000282504a08001a70000011b5,
  0x123164000918b22462c891800000000138000180009b6,
  0x60003520021b7,
  0xe01c0000700e508a1007000000000138005060009b8,
  0x14280e01c0000700e508a1007000000000138005060009b9,
  0x60bb1762ec0000000000000000000000001c538a7140012f0000011ba,
  0x28b5140014383a512a21438000000001380050c0009bb,
  0x28707a0014383d512a31438000000001380050c0009bc,
  0x28d5140000d83a0360e80d8000000001380007c0009bd,
  0x1b0340000d81a51ea380d8000000001380017a0009be,
  0x1b0340000d81a524a440d800000000138005200009bf,
  0x287034001498b85282f9498000000005000017a0009c0,
  0x61cd39a73400000000000000000000000029652ca58002950000011c1,
  0x29c5360014c0cb534a654c0000000013000052e0009c2,
  0x2982880014c144534a754c0000000013000052e0009c3,
  0x29e5360009e8cb27a32c9e8000000001380028a0009c4,
  0x600039a0021c5,
  0x13d18c0009e8c6542a809e8000000001380053e0009c6,
  0x61cd39a7340000000000000000000000000cb19632c002950000011c7,
  0x13d18c0009e8c6548a8c9e800000000138005440009c8,
  0x600054a0021c9,
  0x13d18c001530c554c315530000000005000028a0009ca,
  0x61cd39a7340000000000000000000000002a754ea9c001cb0000011cb,
  0x61cd39a7340000000000000000000000000cb19632c001cb0000011cc,
  0x61d23a47480000000000000000000000000cd19a334001dc0000011cd,
  0x62a9552aa40000000000000000000000001d73ae75c002a80000011ce,
  0x1d53ae000ea9d73aa75cea800000000138003a80009cf,
  0x1d5554000eaaaa3aaaa8ea800000000138003a80009d0,
  0x1d53ac000ea9d63aa758ea800000000138003a80009d1,
  0x60005560021d2,
  0x29818c001568c555c30d568000000013f8005580009d3,
  0x61cd39a7340000000000000000000000002af55eabc001cb0000011d4,
  0x13d1960009e8cb27a32c9e800000000138000180009d5,
  0x600039a0021d6,
  0x600c0180300000000000000000000000001e23c4788000250000011d7,
  0x600c018ac80000000000000000000000002b1562ac4002b00000011d8,
  0xc0178000000000700e01cad95aab4566acd59800000000000250000019d9,
  0xe01c0000700e1ac358070000000015c00056e0009da,
  0xe01c0000700e1ac358070000000015c0005720009db,
  0xe01c0000700e1ac358070000000015d8005740009dc,
  0x60005780021dd,
  0xe01c0000700e1ac358070000000015c00056e0009de,
  0x600c0180300000000000000000000000002bd57aaf4000250000011df,
  0x600057c0021e0,
  0xe01c0000700e1b2364070000000016000057e0009e1,
  0x600c0180300000000000000000000000002c1582b04000250000011e2,
  0xc0178000000000700e01c7ac072c201c03807000000000000250000019e3,
  0xe01c0000700e1b2364070000000016000057e0009e4,
  0xe01c0000700e1b236407000000000138001b00009e5,
  0xe01c0000700e1b2364070000000016000057e0009e6,
  0x60002b00021e7,
  0x16180e01c0000700e01c03807000000000138000180009e8,
  0xe01c0000700e58ab1407000000000138005880009e9,
  0x60dd1ba3700000000000000000000000000db1b636c000da0000011ea,
  0xc017800000000f79ef58e7bcf7ac63de7bcf7800000000000250000019eb,
  0x2c95900004407e1101f8440000000001380010e0009ec,
  0x2c95900004407e1101f844000000000138001c60009ed,
  0x2cb59800165acc596b3165800000000138005940009ee]

def nameStates1 : List Nat := [
  0x2cf59c00165acd596b3565800000000138005940009ef,
  0x2cb59a00165acd596b3565800000000138005940009f0,
  0x60dd1ba3700000000000000000000000000db1b636c002d00000011f1,
  0x881080004408411021044000000000138001c60009f2,
  0x880fc0004407e1101f844000000000138001c60009f3,
  0x60dd1ba37400000000000000000000000019632c6580020b0000011f4,
  0x8810800044084110210440000000001380032e0009f5,
  0x880fc0004407e1101f8440000000001380032e0009f6,
  0xb4c0000000000000000000000002d25a4b48002d10000011f7,
  0x60005a80021f8,
  0x62d45a8b5000000000000000000000000015e2bc578002d50000011f9,
  0x2d601c0016b00e5ac0396b000000000138002b60009fa,
  0x61582b0560000000000000000000000000204408810001ed0000011fb,
  0x60dd1ba3700000000000000000000000000db1b636c002d00000011fc,
  0x2c95900004407e1101f844000000000138001c60009fd,
  0x880960004404b11012c440000000016b80010e0009fe,
  0x620540a8140000000000000000000000000e71ce39c002d80000011ff,
  0x600040a002200,
  0xe51ce000728e71ca39c7280000000013800018000a01,
  0x60005b2002202,
  0x62d95b2b640000000000000000000000001682d05a0002da000001203,
  0x2db01c0016d80e5b60396d800000000138002ca000a04,
  0x6000494002205,
  0x1550960016e2dd5b8b756e0000000001380010e000a06,
  0x61582b05600000000000000000000000002de5bcb7800156000001207,
  0x60dd1ba3ac0000000000000000000000002df5beb7c000da000001208,
  0x880fc0004407e1101f844000000000138001d8000a09,
  0x60dd1ba3ac0000000000000000000000002e05c0b80000da00000120a,
  0x60dd1ba3ac0000000000000000000000002df5beb7c002d000000120b,
  0x881080004408411021044000000000138001d8000a0c,
  0x880fc0004407e1101f844000000000138001d8000a0d,
  0x60dd1ba3ac0000000000000000000000002df5beb7c002d000000120e,
  0x60002f600220f,
  0x60005c2002210,
  0x2e42ee001712e35c4b8d71000000000d180044c000a11,
  0x62e75ceb9c0000000000000000000000002e65ccb98002e5000001212,
  0x62e75ceb9c00000000000000000000000017c2f85f0002e5000001213,
  0x17400e01c0000700e3586b00700000000013800356000a14,
  0xe01c0000700e5d4ba807000000000138005d2000a15,
  0x6219432bb40000000000000000000000002ec5d8bb0002eb000001216,
  0x21d4400010ea2043a8810e8000000001380044c000a17,
  0x21d2ee0010e97743a5dd0e800000000138005dc000a18,
  0x21d4400010ea2043a8810e800000000138005dc000a19,
  0x21d2ee0010e97743a5dd0e8000000001380044c000a1a,
  0x2f05e2001782f15e0bc578000000000138005de000a1b,
  0x2f05e4001782f25e0bc978000000000138005de000a1c,
  0x6219432bd40000000000000000000000002f45e8bd0002f300000121d,
  0x2f601c0017b00e5ec0397b000000000138005dc000a1e,
  0x2f601c0017b00e5ec0397b0000000001380044c000a1f,
  0x62f85f0be0000000000000000000000000220440880002f7000001220,
  0x6219432bb40000000000000000000000002ec5d8bb0002f9000001221,
  0x21d44a0010ea2543a8950e800000000138005dc000a22,
  0x21d4400010ea2043a8810e800000000138005dc000a23,
  0x62194328640000000000000000000000002fb5f6bec002fa000001224,
  0x21d44a0010ea2543a8950e800000000138005f8000a25,
  0x21d4400010ea2043a8810e800000000138005f8000a26,
  0x617b2f65ec00000000000000000000000022f45e8bc00215000001227,
  0x6219432bb40000000000000000000000002ec5d8bb0002f9000001228,
  0x21d2ee0010e97743a5dd0e8000000016b80044c000a29,
  0x60002f600222a,
  0x61582b05600000000000000000000000002344688d0001ed00000122b,
  0x880fc0004407e5febf8440000000008a0005fa000a2c,
  0x88108000440845fec00440000000008a0005fa000a2d,
  0x880960004404b606c084400000000013800602000a2e,
  0x880960004404b606c08440000000008a000608000a2f,
  0x88108000440845fec00440000000008a00060a000a30,
  0x880fc0004407e5febf8440000000008a00060a000a31,
  0x1f53e8000f907e3e61f0f9000000000f88003e0000a32,
  0x1f2108000f90843e6218f9000000000f88003e0000a33,
  0x1f2096000f904b4067e0f9000000000f8800404000a34,
  0x1f2096000f904b610c1cf9000000000f880060c000a35,
  0x61582b0560000000000000000000000000241482904001ed000001236,
  0x880fc0004407e20a418440000000008a000612000a37,
  0x881080004408420a410440000000008a000614000a38,
  0x880fc0004407e20a418440000000008a000614000a39,
  0x881080004408420a410440000000008a000612000a3a,
  0x880960004404b20ac2c440000000001380020e000a3b,
  0x880960004404b20ac2c440000000008a000612000a3c,
  0x617b2f65ec0000000000000000000000002484909200021500000123d,
  0x2224420010ea2061cc350e8000000008a000618000a3e,
  0x21d44a0010ea2561cc410e8000000008a00061e000a3f,
  0x2224420010ea2061cc350e8000000008a00061e000a40,
  0x21d44a0010ea2561cc410e8000000008a000618000a41,
  0x21d2ee0010e97761cc490e80000000096800622000a42,
  0x21d2ee0010e97761cc490e8000000008a000618000a43,
  0x61582b05600000000000000000000000001592b2564001ed000001244,
  0x880fc0004407e62ac504400000000013800626000a45,
  0x881080004408462ac584400000000013800626000a46,
  0x600c01803000000000000000000000000031762ec5c00025000001247,
  0x630000a48,
  0x611823045c00000000000000000000000011622c45800319000001249,
  0x31b6340000700e01c0380700000000013800018000a4a,
  0xe01c0000700e01c0380700000000013800638000a4b,
  0x31b6340000700e01c0380700000000013800638000a4c,
  0x31e63e0018f31f63cc7d8f0000000001380063a000a4d,
  0x3226420018f32063cc818f0000000001380063a000a4e,
  0x31e6400018f32063cc818f0000000001380063a000a4f,
  0xe01c0000700e01c0380700000000013800638000a50,
  0x6118230460000000000000000000000000323646c8c00115000001251,
  0xe01c0000700e01c0380700000000013800230000a52,
  0x31b6340000700e0640c8070000000008a000226000a53,
  0x31b6340000700e0640c8070000000008a000232000a54,
  0x6000352002255,
  0x12315a000918ad64cc949180000000013800648000a56,
  0x19380e01c0000700e01c0380700000000013800018000a57,
  0xe01c0000700e3586b00700000000013800356000a58,
  0x611e23c47400000000000000000000000011c23847000328000001259,
  0xc0178000000012f25e6549792f3294bc9792f00000000000025000001a5a,
  0x32c656000918b22462c89180000000013800256000a5b,
  0x12315a000918ad2462b4918000000001380065a000a5c,
  0x32c656000918b22462c8918000000001380065a000a5d,
  0x32f66000197b3065ecc1978000000001380065c000a5e,
  0x33366400197b3165ecc5978000000001380065c000a5f,
  0x1bc01c000de00e378038de0000000001380065a000a60,
  0x32f66200197b3165ecc5978000000001380065c000a61,
  0x611e23c47400000000000000000000000011c2384700011b000001262,
  0x1232540009192a2464a8918000000001380065a000a63,
  0x123164000918b22462c8918000000001380065a000a64,
  0x611e23c47800000000000000000000000033566acd400334000001265,
  0x1232540009192a2464a8918000000001380066c000a66,
  0x123164000918b22462c8918000000001380066c000a67,
  0x60004e0002268,
  0xe01c0019bb3766ecdd9b800000000d1800018000a69,
  0x600c01803000000000000000000000000025e4bc9780002500000126a,
  0x600c018ce8000000000000000000000000339672ce40033800000126b,
  0x600c018ce800000000000000000000000033b676cec0033800000126c,
  0x60004ea00226d,
  0xe01c0019eb3d67acf59e8000000019e000018000a6e,
  0x600c01803000000000000000000000000033e67ccf80002500000126f,
  0x600c018ce800000000000000000000000033f67ecfc00338000001270,
  0x61a93526a40000000000000000000000002794f29e40025b000001271,
  0x123164000918b224a490918000000008a000244000a72,
  0x12315a000918ad24a4b89180000000013800258000a73,
  0x6000680002274,
  0x6340680d000000000000000000000000001b83706e000341000001275,
  0x34201c001a100e684039a10000000001380036a000a76,
  0x61a93526a4000000000000000000000000282504a080025b000001277,
  0x611e23c47400000000000000000000000011c2384700011b000001278,
  0xc0178000000012f25e654cf92f3434bc9792f00000000000025000001a79,
  0x32c656000918b224a490918000000008a000244000a7a,
  0x32c656000918b224a490918000000008a000250000a7b,
  0x12315a000918ad24a4b891800000001a2000258000a7c,
  0x600c018d1c00000000000000000000000034668cd180034500000127d,
  0xe01c0000700e01c0380700000000013800690000a7e,
  0xe01c0000700e01c0380700000000013800692000a7f,
  0x613526a4d00000000000000000000000001332664cc0034a000001280,
  0x34c6960000d83a0360e80d8000000001380007c000a81,
  0x1b0340000d81a0360680d8000000001380069a000a82,
  0x34c6960000d83a0360e80d8000000001380069a000a83,
  0x34f6a0001a7b5069ed41a78000000001380069c000a84,
  0x3536a4001a7b5169ed45a78000000001380069c000a85,
  0x6a01c0003500e0d4038350000000001380069a000a86,
  0x34f6a2001a7b5169ed45a78000000001380069c000a87,
  0x1b07a0000d83d0360f40d8000000001380069a000a88,
  0x1b0740000d83a0360e80d8000000001380069a000a89,
  0x613526a4d40000000000000000000000003546a8d500013200000128a,
  0x1b07a0000d83d0360f40d800000000138006aa000a8b,
  0x1b0740000d83a0360e80d800000000138006aa000a8c,
  0x34c6960000d83a0720e00d8000000008a000260000a8d,
  0x34c6960000d83a0720e00d8000000008a00026c000a8e,
  0x600039a00228f,
  0x13d18c0009e8c66b0d5c9e800000000138006ac000a90,
  0x613b2764e80000000000000000000000001392724e400359000001291,
  0x35b6b40009e8cb27a32c9e8000000001380028a000a92,
  0x13d18c0009e8c627a3189e800000000138006b8000a93,
  0x35b6b40009e8cb27a32c9e800000000138006b8000a94,
  0x35e6be001af35f6bcd7daf000000000138006ba000a95,
  0x3626c2001af3606bcd81af000000000138006ba000a96,
  0x1db01c000ed80e3b6038ed800000000138006b8000a97,
  0x35e6c0001af3606bcd81af000000000138006ba000a98,
  0x613b2764e80000000000000000000000001392724e400138000001299,
  0x13d2880009e94427a5109e800000000138006b8000a9a,
  0x13d1960009e8cb27a32c9e800000000138006b8000a9b,
  0x613b2764ec0000000000000000000000003646c8d900036300000129c,
  0x13d2880009e94427a5109e800000000138006ca000a9d,
  0x13d1960009e8cb27a32c9e800000000138006ca000a9e,
  0x61cd39a7340000000000000000000000002a754ea9c0029500000129f,
  0x13d1960009e8cb27e4f89e8000000008a000278000aa0,
  0x13d18c0009e8c627e51c9e8000000001380028c000aa1,
  0x60006cc0022a2,
  0x63666ccd980000000000000000000000001d73ae75c003670000012a3,
  0x36801c001b400e6d0039b4000000000138003a8000aa4,
  0x61cd39a7340000000000000000000000002af55eabc002950000012a5,
  0x613b2764e80000000000000000000000001392724e4001380000012a6,
  0x35b6b40009e8cb27e4f89e8000000008a000278000aa7,
  0x35b6b40009e8cb27e4f89e8000000008a000284000aa8,
  0x13d18c0009e8c627e51c9e800000001a200028c000aa9,
  0x60005640022aa,
  0xe01c001b536a6d4da9b5000000001b4800018000aab,
  0x600c01803000000000000000000000000036b6d6dac000250000012ac,
  0xe01c0000700e6d8db007000000000138003bc000aad,
  0x1b680e01c0000700e6d8db007000000000138003bc000aae,
  0x1b700e01c0000700e6d8db007000000000138003bc000aaf,
  0xe01c0000700e6e0dc007000000000138006de000ab0,
  0x600c018dcc0000000000000000000000003726e4dc8003710000012b1,
  0xc017800000001ba3746ecdd1ba3756e8dd1ba00000000000025000001ab2,
  0x600c018de40000000000000000000000003786f0de0003770000012b3,
  0x600c018dcc0000000000000000000000003726e4dc8003710000012b4,
  0xc0178000000000700e01cde9be37b6f4de9bd00000000000025000001ab5,
  0x600c0180300000000000000000000000002bd57aaf4000250000012b6,
  0xe01c0000700e01c03807000000001be800018000ab7,
  0x600c0180300000000000000000000000002c1582b04000250000012b8,
  0x600c01853c00000000000000000000000014e29c5380014d0000012b9,
  0xc017800000000f59eb6fe7acf5b7e3d67acf580000000000025000001aba,
  0xe01c0000700e01c038070000000016b800018000abb,
  0x1c000e01c0000700e01c0380700000000013800018000abc,
  0xe01c0000700e01c0380700000000013800702000abd,
  0x600c018e10000000000000000000000000383706e0c003820000012be,
  0xe01c0000700e01c038070000000001380070a000abf,
  0x16180e01c0000700e58ab140700000000013800588000ac0,
  0x1c300e01c0000700e58ab140700000000013800588000ac1,
  0x388712001c4389710e25c40000000001380070e000ac2,
  0x388714001c438a710e29c40000000001380070e000ac3,
  0x638c718e300000000000000000000000002cd59ab340038b0000012c4,
  0x2cb59a00165acd596b356580000000013800594000ac5,
  0x2cb71a00165b8d596e356580000000013800594000ac6,
  0x2cb59800165acc596b316580000000013800594000ac7,
  0x38f720001c7b9071ee41c78000000001380071c000ac8,
  0x38f722001c7b9171ee45c78000000001380071c000ac9,
  0x60002a20022ca,
  0x7240022cb,
  0x72ae5400000000001ca000726000acc,
  0x39672ce58000000000012cd,
  0x62d45a8b5000000000000000000000000015e2bc578003970000012ce,
  0x60005a80022cf,
  0x15c2bc000ae15e2b8578ae00000000013800018000ad0,
  0xc017800000001cc398734e61cc399730e61cc00000000000025000001ad1,
  0x600040a0022d2,
  0x62d95b2b640000000000000000000000001682d05a00039b0000012d3,
  0x60005b20022d4,
  0x1662d0000b31682cc5a0b300000000013800018000ad5,
  0x1f53e8000f907e73ce74f900000000013800738000ad6,
  0x1f2108000f908473ce7cf900000000013800738000ad7,
  0x880960004404b742e8044000000000138002d2000ad8,
  0x88096000b516d2d45b4b5000000000a900010e000ad9,
  0x1f2096001d116d7465add1000000000a90002d2000ada,
  0x62e75ceb9c0000000000000000000000003a574ae94003a40000012db,
  0x3ab754001d3a20752ea1d38000000013000074c000adc,
  0x3a744a001d3a25752eb1d38000000013000074c000add,
  0x3ad7540010ea2043a8810e8000000001380044c000ade,
  0x60005ce0022df,
  0x21d2ee0010e977760ebd0e8000000001380075c000ae0,
  0x62e75ceb9c000000000000000000000000220440880003a40000012e1,
  0xe01c0000700e01c0380700000000013800762000ae2,
  0x600c018ed00000000000000000000000003b3766ecc003b20000012e3,
  0xe01c0000700e01c038070000000001380076a000ae4,
  0x600076c0022e5,
  0x21d2ee001db97676e5d9db800000000a900044c000ae6,
  0x62e75ceb9c0000000000000000000000003b8770ee0002e50000012e7,
  0x62f85f0ee800000000000000000000000017e2fc5f8003b90000012e8,
  0x63bc778ef00000000000000000000000002f25e4bc8003bb0000012e9,
  0x2f05e4001782f25e0bc978000000000138005de000aea,
  0x2f077a001783bd5e0ef578000000000138005de000aeb,
  0x2f05e2001782f15e0bc578000000000138005de000aec,
  0x600077c0022ed,
  0x3a72ee001e09767845d1e0800000001e000077e000aee,
  0x62e75ceb9c0000000000000000000000003c3786f0c002e50000012ef,
  0x21d4400010ea2043a8810e80000000013800018000af0,
  0x60005ce0022f1,
  0x62e75ceb9c000000000000000000000000220440880002e50000012f2,
  0x600076c0022f3,
  0x60007880022f4,
  0x21d2ee001e2bc678af19e28000000001380044c000af5,
  0x62f85f0be000000000000000000000000017c2f85f0002f70000012f6,
  0x60dd1ba61000000000000000000000000018330660c003c70000012f7,
  0x880960004404b11012c440000000001380030a000af8,
  0x880fc0004407e1101f8440000000001380030a000af9,
  0xed01c0007680e1da038768000000001380030a000afa,
  0x60dd1ba61000000000000000000000000018330660c003c80000012fb,
  0x8810800044084110210440000000001380030a000afc,
  0x880fc0004407e1101f8440000000001380030a000afd,
  0x60dd1ba61000000000000000000000000018330660c003c80000012fe,
  0x60dd1ba6100000000000000000000000003c9792f24003c70000012ff,
  0x60ef1def300000000000000000000000003cb796f2c003ca000001300,
  0x8810800044084110210440000000001380079a000b01,
  0x2c95900004407e1101f8440000000001380079a000b02,
  0x60ef1de6380000000000000000000000001903206400018c000001303,
  0x60ef1de6380000000000000000000000003ce79cf380018c000001304,
  0x8810800044084110210440000000001380031e000b05,
  0x62f85f0f440000000000000000000000003d07a0f40003cf000001306,
  0x21d2ee0010e97743a5dd0e800000000138007a4000b07,
  0x21d4400010ea2043a8810e800000000138007a4000b08,
  0x62f85f0f540000000000000000000000003d47a8f50003d3000001309,
  0x2f601c0017b00e5ec0397b000000000138007a4000b0a,
  0x62f85f0f440000000000000000000000003d07a0f40003cf00000130b,
  0x21d44a0010ea2543a8950e800000000138007a4000b0c,
  0x60dd1ba37400000000000000000000000019632c658003d600000130d,
  0x880960004404b11012c440000000001380032e000b0e,
  0x880fc0004407e1101f8440000000001380032e000b0f,
  0xed01c0007680e1da038768000000001380032e000b10,
  0xe01c0000700e0640c8070000000008a000226000b11,
  0x3d77aef5c00000000001312,
  0x6000230002313,
  0x3d97b4001ecbda7b2f69ec800000000138007b0000b14,
  0x3d97b6001ecbdb7b2f6dec800000000138007b0000b15,
  0x600c0180300000000000000000000000003dc7b8f7000025000001316,
  0x63de7bcf78000000000000000000000000320640c80003dd000001317,
  0x31e6400018f32063cc818f0000000001380063a000b18,
  0x31e7be0018f3df63cf7d8f0000000001380063a000b19,
  0x31e63e0018f31f63cc7d8f0000000001380063a000b1a,
  0x3e17c4001f0be27c2f89f0800000000138007c0000b1b,
  0x3e17c6001f0be37c2f8df0800000000138007c0000b1c,
  0xe01c001f23e47c8f91f200000000013800018000b1d,
  0x611e23cf980000000000000000000000003e57caf940011b00000131e,
  0x1232540009192a2464a891800000000138007ce000b1f,
  0x123164000918b22462c891800000000138007ce000b20,
  0xe01c0000700e01c03807000000000138007d0000b21,
  0x6000344002322,
  0x19380e01c0000700e3586b00700000000013800356000b23,
  0x1f480e01c0000700e3586b00700000000013800356000b24,
  0x3eb7d8001f5bec7d6fb1f5800000000138007d4000b25,
  0x3eb7da001f5bed7d6fb5f5800000000138007d4000b26,
  0x61b3366fc00000000000000000000000003ef7defbc003ee000001327,
  0x63f27e4fc8000000000000000000000000331662cc4003f1000001328,
  0x32f66200197b3165ecc5978000000001380065c000b29,
  0x32f7e600197bf365efcd978000000001380065c000b2a,
  0x32f66000197b3065ecc1978000000001380065c000b2b,
  0x3f57ec001fabf67eafd9fa800000000138007e8000b2c,
  0x3f57ee001fabf77eafddfa800000000138007e8000b2d,
  0x60007f000232e,
  0x12315a001fcbfa7f2fe9fc80000000013800256000b2f,
  0x61b33666cc0000000000000000000000001aa3546a8001bd000001330,
  0xe01c0000700e3586b007000000001300007f6000b31,
  0x60007f8002332,
  0xe01c0000700e3586b007000000001300007f6000b33,
  0x600c0180300000000000000000000000003fd7faff400025000001334,
  0xe01c0000700e35e6bc07000000001ff8007fc000b35,
  0xc0178000000000700e01ccf80740001c0380700000000000025000001b36,
  0xe01c0000700e35e6bc07000000001ff8007fc000b37,
  0xe01c0000700e35e6bc070000000001380035c000b38,
  0xe01c0000700e35e6bc07000000001ff8007fc000b39,
  0x6340680d000000000000000000000000001b83706e00040100000133a,
  0x600068000233b,
  0x1b6370000db1b836c6e0db00000000013800018000b3c,
  0x20100e01c0000700e3586b00700000000013800356000b3d,
  0xc01780000000201c0380b00e01c0480700e0180000000000025000001b3e,
  0x600068e00233f,
  0xe01c00203c0780f01e0380000000203000018000b40,
  0x600c01803000000000000000000000000040380700c00025000001341,
  0x600c018ce800000000000000000000000040881102000338000001342,
  0x600c018ce800000000000000000000000040981302400338000001343,
  0x6000380002344,
  0x40b81800205c0c8170320580000000013800814000b45,
  0x40b81a00205c0d8170360580000000013800814000b46,
  0x60670ce19c00000000000000000000000040e81d0380006b000001347,
  0x64108210400000000000000000000000003516a2d440040f000001348,
  0x34f6a2001a7b5169ed45a78000000001380069c000b49,
  0x34f822001a7c1169f045a78000000001380069c000b4a,
  0x34f6a0001a7b5069ed41a78000000001380069c000b4b,
  0x41382800209c148270520980000000013800824000b4c,
  0x41382a00209c158270560980000000013800824000b4d,
  0x1b0340020b41782d05e0b0000000001380007c000b4e,
  0x60670ce19c0000000000000000000000001c538a7140006b00000134f,
  0x613b27706400000000000000000000000041883106000138000001350,
  0x13d2880009e94427a5109e80000000013800834000b51,
  0x13d1960009e8cb27a32c9e80000000013800834000b52,
  0x600038e002353,
  0x41c83a0020e41d8390760e00000000013800836000b54,
  0x41c83c0020e41e83907a0e00000000013800836000b55,
  0x61d23a50840000000000000000000000004208410800041f000001356,
  0x642384708c0000000000000000000000003606c0d8000422000001357,
  0x35e6c0001af3606bcd81af000000000138006ba000b58,
  0x35e848001af4246bd091af000000000138006ba000b59,
  0x35e6be001af35f6bcd7daf000000000138006ba000b5a,
  0x42684e0021342784d09e130000000001380084a000b5b,
  0x4268500021342884d0a2130000000001380084a000b5c,
  0x600085200235d,
  0x13d18c0021542b8550ae150000000001380028a000b5e,
  0x61d23a47480000000000000000000000001ce39c738001dc00000135f,
  0x63666ccd980000000000000000000000001d73ae75c0042c000001360,
  0x60006cc002361,
  0x1d53ae000ea9d73aa75cea80000000013800018000b62,
  0xc0178000000000700e01cdac0742d01c0380700000000000025000001b63,
  0xe01c0000700e6d8db0070000000021780085c000b64,
  0xe01c0000700e6d8db007000000000138003bc000b65,
  0xe01c0000700e01c0380700000000013800860000b66,
  0xe01c0000700e01c0380700000000013800862000b67,
  0x864000b68,
  0x600c0190d40000000000000000000000004348690d000433000001369,
  0xe01c0000700e01c038070000000001380086c000b6a,
  0x60006e600236b,
  0xe01c000f01e03c0780f00000000021b800018000b6c,
  0x600c0180300000000000000000000000003746e8dd00002500000136d,
  0xe01c0000700e1ac3580700000000013800574000b6e,
  0x21c00e01c0000700e1ac3580700000000013800574000b6f,
  0x21c80e01c0000700e1ac3580700000000013800574000b70,
  0x6000874002371,
  0xe01c000f01e03c2784f00000000021d80085c000b72,
  0x600c01803000000000000000000000000043c8790f000025000001373,
  0xe01c0000700e87d0f8070000000001380087a000b74,
  0x21f80e01c0000700e87d0f8070000000001380087a000b75,
  0x22000e01c0000700e87d0f8070000000001380087a000b76,
  0xc01780000000220c4188710620c428831062080000000000025000001b77,
  0x1c000e01c0000700e1b236407000000000138001b0000b78,
  0x22200e01c0000700e1b236407000000000138001b0000b79,
  0xe01c0000700e01c0380700000000013800298000b7a,
  0x600c0187a000000000000000000000000044588b114001e600000137b,
  0x600070800237c,
  0xe01c0022344688d11a23000000000a9000018000b7d,
  0x600c0180300000000000000000000000001ef3de7bc0002500000137e,
  0x600c0187a000000000000000000000000044788f11c001e600000137f,
  0x890000b80,
  0x644a89512800000000000000000000000038a714e2800449000001381,
  0x388714001c438a710e29c40000000001380070e000b82,
  0x388896001c444b71112dc40000000001380070e000b83,
  0x388712001c4389710e25c40000000001380070e000b84,
  0x6000898002385,
  0x644c8991300000000000000000000000002cd59ab340044d000001386,
  0x44e01c0022700e89c03a2700000000013800594000b87,
  0x64508a1140000000000000000000000000391722e440044f000001388,
  0x38f722001c7b9171ee45c78000000001380071c000b89,
  0x38f8a2001c7c5171f145c78000000001380071c000b8a,
  0x38f720001c7b9071ee41c78000000001380071c000b8b,
  0x39672ce580000000000138c,
  0x11500000000000000000000000004538a714c0045200000138d,
  0x22ac558ad1562ac568ab1562a80000000000000000001b8e,
  0x8ae000b8f,
  0x22c000000000b90,
  0x60005a8002391,
  0xe01c0000700e8b516807000000000138008b2000b92,
  0x22d80e01c0000700e8b516807000000000138008b2000b93,
  0x22e00e01c0000700e8b516807000000000138008b2000b94,
  0x60005b2002395,
  0x60dd1ba83400000000000000000000000020c418830003d6000001396,
  0x880960004404b11012c44000000000138008ba000b97,
  0x2c95900004407e1101f844000000000138008ba000b98,
  0xed01c0007680e1da03876800000000138008ba000b99,
  0x881080004408411021044000000000138008ba000b9a,
  0x880fc0004407e1101f844000000000138008ba000b9b,
  0x2c95900004407e41e21444000000000f880041c000b9c,
  0x2c95900004407e41e21444000000000f8800420000b9d,
  0x60005ce00239e,
  0x21d2ee0010e9778c117d0e800000000138008bc000b9f,
  0x621943286000000000000000000000000021742e85c004610000013a0,
  0x4638c40010ea2043a8810e8000000001380044c000ba1,
  0x21d2ee0010e97743a5dd0e800000000138008c8000ba2,
  0x4638c40010ea2043a8810e800000000138008c8000ba3,
  0x4668ce002334678cd19e33000000000138008ca000ba4,
  0x46a8d2002334688cd1a233000000000138008ca000ba5,
  0x2f601c0017b00e5ec0397b000000000138008c8000ba6,
  0x4668d0002334688cd1a233000000000138008ca000ba7,
  0x621943286000000000000000000000000021742e85c002160000013a8,
  0x21d44a0010ea2543a8950e800000000138008c8000ba9,
  0x21d4400010ea2043a8810e800000000138008c8000baa,
  0x600c0191b400000000000000000000000046c8d91b00046b0000013ab,
  0x60007680023ac,
  0xe01c00237c6f8df1be3780000000237000018000bad,
  0x600c0180300000000000000000000000004708e11c0000250000013ae,
  0x600c0191b40000000000000000000000004718e31c40046b0000013af,
  0x62e75ceb9c0000000000000000000000003b8770ee0003a40000013b0,
  0x21d4400010ea2043e8790e800000000f8800438000bb1,
  0x21d2ee0010e9774528a10e8000000001380044e000bb2,
  0x60008e40023b3,
  0x62e75ceb9c00000000000000000000000022f45e8bc002e50000013b4,
  0x60008e60023b5,
  0x64738e71cc0000000000000000000000002f25e4bc8004740000013b6,
  0x47501c0023a80e8ea03a3a800000000138005de000bb7,
  0x62e75ceb9c0000000000000000000000003c3786f0c003a40000013b8,
  0x621943286000000000000000000000000021742e85c002160000013b9,
  0xc0178000000012f25e6551c12f4764bc9792f00000000000025000001bba,
  0x4638c40010ea2043e8790e800000000f8800438000bbb,
  0x4638c40010ea2043e8790e800000000f8800446000bbc,
  0x21d2ee0010e9774528a10e800000001a200044e000bbd,
  0x62e75ceb9c00000000000000000000000017c2f85f0003a40000013be,
  0x21d4400010ea208f31e10e800000000138008ee000bbf,
  0x21d44a0010ea258f31e90e800000000138008ee000bc0,
  0x60004620023c1,
  0x60004620023c2,
  0x1f20960023da338f88da3d800000000500002d2000bc3,
  0x60008fa0023c4,
  0x1550960023f47f8fd1fe3f000000000a900010e000bc5,
  0x61582b0560000000000000000000000000480901200001560000013c6,
  0x60ef1de5840000000000000000000000004819032040015f0000013c7,
  0x1f2096002412409068fa41000000000500002d2000bc8,
  0x60009080023c9,
  0x21d2ee00242a4790a91e428000000005000044c000bca,
  0x62e75ceb9c00000000000000000000000048690d218002e50000013cb,
  0x62f85f0be0000000000000000000000000249492924002f70000013cc,
  0x600090e0023cd,
  0x3a72ee00244247912916440000000013f80077e000bce,
  0x62e75ceb9c00000000000000000000000048a915228002e50000013cf,
  0x60004940023d0,
  0x91b2340000000000246000916000bd1,
  0x648f91f23c0000000000000000000000003db7b6f6c0048e0000013d2,
  0x3d97b6001ecbdb7b2f6dec800000000138007b0000bd3,
  0x3d9920001ecc907b3241ec800000000138007b0000bd4,
  0x3d97b4001ecbda7b2f69ec800000000138007b0000bd5,
  0x25001c0012800e9229592800000000013800148000bd6,
  0x60009240023d7,
  0x6492925248000000000000000000000000320640c80004930000013d8,
  0x49401c0024a00e92803a4a0000000001380063a000bd9,
  0x649692d2580000000000000000000000003e37c6f8c004950000013da,
  0x3e17c6001f0be37c2f8df0800000000138007c0000bdb,
  0x3e192e001f0c977c325df0800000000138007c0000bdc,
  0x3e17c4001f0be27c2f89f0800000000138007c0000bdd,
  0xe01c0000700e9332640700000000013800930000bde,
  0x12315a0024d49b93526e4d000000000d1800256000bdf,
  0x61a93526a400000000000000000000000025c4b8970001a70000013e0,
  0x61b3366fc000000000000000000000000049c939270003ee0000013e1,
  0x600c018ce800000000000000000000000049d93b274003380000013e2]

def nameStates2 : List Nat := [
  0x93c000be3,
  0x64a09412800000000000000000000000003ed7dafb40049f0000013e4,
  0x3eb7da001f5bed7d6fb5f5800000000138007d4000be5,
  0x3eb942001f5ca17d7285f5800000000138007d4000be6,
  0x3eb7d8001f5bec7d6fb1f5800000000138007d4000be7,
  0x60009440023e8,
  0x26115a001308ad9469a530800000001300004fc000be9,
  0x61a93526a40000000000000000000000004a4949290001a70000013ea,
  0x600094a0023eb,
  0x64a594b294000000000000000000000000331662cc4004a60000013ec,
  0x4a701c0025380e94e03a538000000001380065c000bed,
  0x64a99532a40000000000000000000000003f77eefdc004a80000013ee,
  0x3f57ee001fabf77eafddfa800000000138007e8000bef,
  0x3f5954001facaa7eb2a9fa800000000138007e8000bf0,
  0x3f57ec001fabf67eafd9fa800000000138007e8000bf1,
  0x61a93526a40000000000000000000000001aa3546a80025b0000013f2,
  0x123164000918b295b2b09180000000013800956000bf3,
  0x1232540009192a95b2b89180000000013800956000bf4,
  0x600c0189c000000000000000000000000026f4de9bc0026e0000013f5,
  0x600c0180300000000000000000000000003fd7faff4000250000013f6,
  0xe01c0000700e01c03807000000001a2000018000bf7,
  0x600c0189d40000000000000000000000002744e89d0002730000013f8,
  0xc0178000000019f33e960cf99f4af67ccf99f00000000000025000001bf9,
  0x20100e01c0000700e01c0380700000000013800018000bfa,
  0x60006800023fb,
  0xe01c0000700e01c03807000000000138004e4000bfc,
  0xe01c0000700e508a100700000000013800506000bfd,
  0x25880e01c0000700e508a100700000000013800506000bfe,
  0x25900e01c0000700e508a100700000000013800506000bff,
  0xc0178000000000700e01d00c074b301c0380700000000000025000001c00,
  0xe01c0000700e508a1007000000001a2000968000c01,
  0xe01c0000700e508a1007000000001a2000968000c02,
  0xe01c0000700e508a1007000000001a2000968000c03,
  0x64b696d2d800000000000000000000000040d81b034004b5000001404,
  0x40b81a00205c0d8170360580000000013800814000c05,
  0x40b96e00205cb78172de0580000000013800814000c06,
  0x40b81800205c0c8170320580000000013800814000c07,
  0x2870340014381a970a39438000000001380017a000c08,
  0x6000972002409,
  0x64b99732e40000000000000000000000003516a2d44004ba00000140a,
  0x4bb01c0025d80e97603a5d8000000001380069c000c0b,
  0x64bd97b2f400000000000000000000000041582b054004bc00000140c,
  0x41382a00209c158270560980000000013800824000c0d,
  0x41397c00209cbe8272fa0980000000013800824000c0e,
  0x41382800209c148270520980000000013800824000c0f,
  0x1b0740000d83a9833000d8000000001380097e000c10,
  0x1b07a0000d83d9833080d8000000001380097e000c11,
  0x13d18c00261cc498731261800000000d180028a000c12,
  0x61cd39a73400000000000000000000000029652ca58001cb000001413,
  0x61d23a50840000000000000000000000004c598b3140041f000001414,
  0x64c798f31c00000000000000000000000041e83d078004c6000001415,
  0x41c83c0020e41e83907a0e00000000013800836000c16,
  0x41c9900020e4c88393220e00000000013800836000c17,
  0x41c83a0020e41d8390760e00000000013800836000c18,
  0x6000992002419,
  0x29818c0014c0c6994a814c00000000130000558000c1a,
  0x61cd39a7340000000000000000000000004cb99732c001cb00000141b,
  0x600099800241c,
  0x64cc9993300000000000000000000000003606c0d80004cd00000141d,
  0x4ce01c0026700e99c03a67000000000138006ba000c1e,
  0x64d09a13400000000000000000000000004288510a0004cf00000141f,
  0x4268500021342884d0a2130000000001380084a000c20,
  0x4269a2002134d184d346130000000001380084a000c21,
  0x42684e0021342784d09e130000000001380084a000c22,
  0x61cd39a7340000000000000000000000001ce39c73800295000001423,
  0x13d1960009e8cb9a934c9e800000000138009a4000c24,
  0x13d2880009e9449a93549e800000000138009a4000c25,
  0x60006cc002426,
  0x26b00e01c0000700e01c0380700000000013800018000c27,
  0x600c018ac80000000000000000000000002b1562ac4002b0000001428,
  0xc017800000001b5b6b9b0dadb5cd76d6dadb580000000000025000001c29,
  0x600c01936c0000000000000000000000004da9b5368004d900000142a,
  0x600c0193780000000000000000000000004dd9bb374004dc00000142b,
  0x13840000000000000000000000004e09c1380004df00000142c,
  0x600086a00242d,
  0xe01c00271ce39c738e7180000000271000018000c2e,
  0x600c0180300000000000000000000000004e49c93900002500000142f,
  0x600c0193780000000000000000000000004e59cb394004dc000001430,
  0xc0178000000000700e01cdd0074e601c0380700000000000025000001c31,
  0xe01c0000700e01c03807000000000138009ce000c32,
  0x9d0000c33,
  0x600c01803000000000000000000000000043c8790f000025000001434,
  0xc017800000001b5b6b9b1391b5ce96d6dadb580000000000025000001c35,
  0xe01c0000700e1ac3580700000000275000574000c36,
  0x600c0193b40000000000000000000000004ec9d93b0004eb000001437,
  0xe01c0000700e01c03807000000000138009dc000c38,
  0xe01c0000700e01c03807000000000138009de000c39,
  0x9e0000c3a,
  0xe01c0000700e9e53c807000000000138009e2000c3b,
  0x27980e01c0000700e9e53c807000000000138009e2000c3c,
  0x27a00e01c0000700e9e53c807000000000138009e2000c3d,
  0x3fa000c3e,
  0xe01c0000700e58ab1407000000000f88009ea000c3f,
  0xe01c0000700e58ab1407000000000f88009ea000c40,
  0xe01c0000700e58ab1407000000000f88009ea000c41,
  0xb4c0000000000000000000000004f69ed3d8002d1000001442,
  0x60009ee002443,
  0x64f79ef3dc00000000000000000000000038a714e28004f8000001444,
  0x4f901c0027c80e9f203a7c8000000001380070e000c45,
  0x644c8991300000000000000000000000002cd59ab34004fa000001446,
  0x6000898002447,
  0x2cb59a00165acd596b356580000000013800018000c48,
  0x60009f6002449,
  0x64fb9f73ec000000000000000000000000391722e44004fc00000144a,
  0x4fd01c0027e80e9fa03a7e8000000001380071c000c4b,
  0x8a800244c,
  0x27fcff9ff3fe7f8000000027f000000000c4d,
  0x4558ab1540000000000144e,
  0x72ae540000000000000000a00000c4f,
  0x2220000000000000072ae540000000000000000a00000c50,
  0xb4c000000000000000000000000501a03404002d1000001451,
  0x281502a0740a81503a0540a8100000000000000000001c52,
  0x600c019418000000000000000000000000505a0b41400504000001453,
  0xe01c0000700e01c0380700000000013800a0e000c54,
  0xe01c0000700e01c0380700000000013800a10000c55,
  0xa12000c56,
  0x60ef1de3bc00000000000000000000000050aa15428000ee000001457,
  0x621943343000000000000000000000000050ba1742c00216000001458,
  0x21d44a0010ea2543a8950e80000000013800a1a000c59,
  0x21d4400010ea2043a8810e80000000013800a1a000c5a,
  0x60005c200245b,
  0x50fa2000287d10a1f4428780000000013800a1c000c5c,
  0x50fa2200287d11a1f4468780000000013800a1c000c5d,
  0x62f85f1450000000000000000000000000513a2744c0051200000145e,
  0x6516a2d4580000000000000000000000004688d11a00051500000145f,
  0x4668d0002334688cd1a233000000000138008ca000c60,
  0x466a2e002335178cd45e33000000000138008ca000c61,
  0x4668ce002334678cd19e33000000000138008ca000c62,
  0x519a340028cd1aa3346a8c80000000013800a30000c63,
  0x519a360028cd1ba3346e8c80000000013800a30000c64,
  0x6000a38002465,
  0xe01c0000700e5d4ba8070000000028f000a3a000c66,
  0x600c01803000000000000000000000000051fa3f47c00025000001467,
  0xc0178000000000700e01d1c00752001c0380700000000000025000001c68,
  0xe01c0000700e5d4ba8070000000028f000a3a000c69,
  0xe01c0000700e5d4ba807000000000138005d2000c6a,
  0xe01c0000700e5d4ba8070000000028f000a3a000c6b,
  0x62e75ceb9c00000000000000000000000022f45e8bc003a400000146c,
  0x64738e71cc0000000000000000000000002f25e4bc80052100000146d,
  0x60008e600246e,
  0x2f05e4001782f25e0bc97800000000013800018000c6f,
  0x29100e01c0000700e3586b00700000000013800356000c70,
  0x62194328640000000000000000000000002fb5f6bec00523000001471,
  0x21d2ee0010e97743a5dd0e800000000138005f8000c72,
  0x21d4400010ea2043a8810e800000000138005f8000c73,
  0x2f601c0017b00e5ec0397b000000000138005f8000c74,
  0x2c95900004407e5febf8440000000008a0005fa000c75,
  0x2c95900004407e5febf8440000000008a00060a000c76,
  0x61582b0560000000000000000000000000524a49490001ed000001477,
  0x1f53e8000f907e611494f9000000000f880060c000c78,
  0x1f2108000f9084611498f9000000000f880060c000c79,
  0x880960004404ba50c1c4400000000013800a4e000c7a,
  0x1f2096000f904b610c1cf9000000000f880060c000c7b,
  0x2c95900004407e20a418440000000008a000612000c7c,
  0x2c95900004407e20a418440000000008a000614000c7d,
  0x62e75ceb9c00000000000000000000000048690d218003a400000147e,
  0x21d4400010ea2061cc350e8000000008a000618000c7f,
  0x21d2ee0010e97761cc490e80000000013800622000c80,
  0x62e75ceb9c00000000000000000000000048a915228003a4000001481,
  0x4638c40010ea2061cc350e8000000008a000618000c82,
  0x4638c40010ea2061cc350e8000000008a00061e000c83,
  0x21d2ee0010e97761cc490e800000001a2000622000c84,
  0x14ac00000000000000000000000052aa554a800529000001485,
  0x29652ca5b4b29652da594b29600000000000000000001c86,
  0xa5c000c87,
  0x6000a5e002488,
  0x652fa5f4bc0000000000000000000000003db7b6f6c00530000001489,
  0x53101c0029880ea6203a98800000000138007b0000c8a,
  0x31b6340000700e01c0380700000000013800638000c8b,
  0x6492925248000000000000000000000000320640c800053200000148c,
  0x600092400248d,
  0x31e6400018f32063cc818f00000000013800018000c8e,
  0x6000a6600248f,
  0x6533a674cc0000000000000000000000003e37c6f8c00534000001490,
  0x53501c0029a80ea6a03a9a800000000138007c0000c91,
  0x6118230460000000000000000000000000323646c8c00319000001492,
  0xe01c0000700e01c0380700000000013800230000c93,
  0x123164000918b2a714dc9180000000130000a6c000c94,
  0x1232540009192aa714e49180000000130000a6c000c95,
  0x12315a000918ad64cc949180000000130000a74000c96,
  0xe01c0000700e3586b007000000001300007f6000c97,
  0x14f400000000000000000000000053ca794f00053b000001498,
  0x6000a7c002499,
  0x653ea7d4f80000000000000000000000003ed7dafb40053f00000149a,
  0x54001c002a000ea8003aa0000000000138007d4000c9b,
  0x61a93526a40000000000000000000000004a49492900025b00000149c,
  0x32c656000918b22462c8918000000001380065a000c9d,
  0x12315a000918ad2462b491800000001a2000256000c9e,
  0x64a594b294000000000000000000000000331662cc40054100000149f,
  0x600094a0024a0,
  0x32f66200197b3165ecc59780000000013800018000ca1,
  0x6000a840024a2,
  0x6542a855080000000000000000000000003f77eefdc005430000014a3,
  0x54401c002a200ea8803aa2000000000138007e8000ca4,
  0x611e23c47800000000000000000000000033566acd4005450000014a5,
  0x12315a000918ad2462b4918000000001380066c000ca6,
  0x123164000918b22462c8918000000001380066c000ca7,
  0x1bc01c000de00e378038de0000000001380066c000ca8,
  0x20100e01c0000700e35e6bc070000000001380035c000ca9,
  0x2a300e01c0000700e35e6bc070000000001380035c000caa,
  0xe01c0000700e01c0380700000000013800692000cab,
  0xa8e000cac,
  0x25880e01c0000700e01c0380700000000013800018000cad,
  0x600c018d1c00000000000000000000000034668cd18003450000014ae,
  0x6000a900024af,
  0x6548a9152000000000000000000000000040d81b034005490000014b0,
  0x54a01c002a500ea9403aa500000000013800814000cb1,
  0x34c6960000d83a0360e80d8000000001380069a000cb2,
  0x64b99732e40000000000000000000000003516a2d440054b0000014b3,
  0x60009720024b4,
  0x34f6a2001a7b5169ed45a780000000013800018000cb5,
  0x6000a980024b6,
  0x654ca9953000000000000000000000000041582b0540054d0000014b7,
  0x54e01c002a700ea9c03aa700000000013800824000cb8,
  0x613526a4d40000000000000000000000003546a8d500034a0000014b9,
  0x1b0340000d81a0360680d800000000138006aa000cba,
  0x1b0740000d83a0360e80d800000000138006aa000cbb,
  0x6a01c0003500e0d403835000000000138006aa000cbc,
  0x13d1960009e8cbaa35409e80000000130000a9e000cbd,
  0x13d2880009e944aa35489e80000000130000a9e000cbe,
  0x13d18c0009e8c66b0d5c9e80000000130000aa6000cbf,
  0x6000aa80024c0,
  0x6554aa955000000000000000000000000041e83d078005550000014c1,
  0x55601c002ab00eaac03aab00000000013800836000cc2,
  0x61cd39a7340000000000000000000000004cb99732c002950000014c3,
  0x35b6b40009e8cb27a32c9e800000000138006b8000cc4,
  0x13d18c0009e8c627a3189e800000001a200028a000cc5,
  0x64cc9993300000000000000000000000003606c0d80005570000014c6,
  0x60009980024c7,
  0x35e6c0001af3606bcd81af00000000013800018000cc8,
  0x6000ab00024c9,
  0x6558ab15600000000000000000000000004288510a0005590000014ca,
  0x55a01c002ad00eab403aad0000000001380084a000ccb,
  0x613b2764ec0000000000000000000000003646c8d900055b0000014cc,
  0x13d18c0009e8c627a3189e800000000138006ca000ccd,
  0x13d1960009e8cb27a32c9e800000000138006ca000cce,
  0x1db01c000ed80e3b6038ed800000000138006ca000ccf,
  0xe01c0000700e01c0380700000000013800ab8000cd0,
  0x26b00e01c0000700e6d8db007000000000138003bc000cd1,
  0x2ae80e01c0000700e6d8db007000000000138003bc000cd2,
  0x6000abc0024d3,
  0xe01c0000700e6d8db0070000000021780085c000cd4,
  0x600c01803000000000000000000000000055fabf57c000250000014d5,
  0x6000ac00024d6,
  0xe01c0000700e6e0dc007000000002b1000ac2000cd7,
  0x600c018030000000000000000000000000563ac758c000250000014d8,
  0xac80024d9,
  0xacf59c00000000002b3000aca000cda,
  0x568ad15a0000000000014db,
  0xc0178000000000700e01d3900756901c0380700000000000025000001cdc,
  0xe01c0000700e6e0dc007000000002b1000ac2000cdd,
  0xe01c0000700e6e0dc007000000000138006de000cde,
  0xe01c0000700e6e0dc007000000002b1000ac2000cdf,
  0x21c00e01c0000700e01c0380700000000013800018000ce0,
  0x600c01879400000000000000000000000056aad55a8001e30000014e1,
  0x15b400000000000000000000000056cad95b00056b0000014e2,
  0x2b700e01c0000700e6d8db007000000000138003bc000ce3,
  0xc017800000002b7d6fae35beb7d70adf5beb780000000000025000001ce4,
  0x60009da0024e5,
  0xe01c002b9d73ae75ceb9800000002b9000018000ce6,
  0x600c01803000000000000000000000000056fadf5bc000250000014e7,
  0x600c01936c000000000000000000000000574ae95d0004d90000014e8,
  0x600c01936c000000000000000000000000575aeb5d4004d90000014e9,
  0x1384000000000000000000000000576aed5d8004df0000014ea,
  0x600c0195e4000000000000000000000000578af15e0005770000014eb,
  0xe01c0000700e01c0380700000000013800af4000cec,
  0xe01c0000700e01c0380700000000013800af6000ced,
  0xaf8000cee,
  0x600c018e10000000000000000000000000383706e0c003820000014ef,
  0xaff5fc00000000002bf000afa000cf0,
  0x64f79ef3dc00000000000000000000000038a714e28005800000014f1,
  0x60009ee0024f2,
  0x388714001c438a710e29c400000000013800018000cf3,
  0x60008980024f4,
  0x64fb9f73ec000000000000000000000000391722e44005810000014f5,
  0x60009f60024f6,
  0x38f722001c7b9171ee45c780000000013800018000cf7,
  0x1154005820000000000000000000000000001cf8,
  0x72ae5400000000001ca000726000cf9,
  0x11500000000000000000000000004538a714c004520000014fa,
  0x72ae5400000000001ca000726000cfb,
  0xb096100000000000000000b06000cfc,
  0x22e00000000000000b096100000000000000000b06000cfd,
  0x6000a0c0024fe,
  0xe01c002c3586b0d61ac3000000002c2800018000cff,
  0x600c018030000000000000000000000000398730e6000025000001500,
  0x600c0187a0000000000000000000000000587b0f61c001e6000001501,
  0x600c0187a0000000000000000000000000588b11620001e6000001502,
  0xb4c000000000000000000000000589b13624002d1000001503,
  0x1f2096000f904bb14e80f9000000000138002d2000d04,
  0x21d2ee002c5d8cb17632c5800000000d180044c000d05,
  0x62e75ceb9c0000000000000000000000003a574ae94002e5000001506,
  0x62f85f145000000000000000000000000058db1b63400512000001507,
  0x658fb1f63c000000000000000000000000511a234440058e000001508,
  0x50fa2200287d11a1f4468780000000013800a1c000d09,
  0x50fb2000287d90a1f6428780000000013800a1c000d0a,
  0x50fa2000287d10a1f4428780000000013800a1c000d0b,
  0x6000b2200250c,
  0x3a72ee001d3977b24ebdd38000000013000077e000d0d,
  0x62e75ceb9c000000000000000000000000593b2764c002e500000150e,
  0x6000b2800250f,
  0x6594b296500000000000000000000000004688d11a000595000001510,
  0x59601c002cb00eb2c03acb000000000138008ca000d11,
  0x6598b3166000000000000000000000000051ba3746c00597000001512,
  0x519a360028cd1ba3346e8c80000000013800a30000d13,
  0x519b320028cd99a336668c80000000013800a30000d14,
  0x519a340028cd1aa3346a8c80000000013800a30000d15,
  0x600c01803000000000000000000000000051fa3f47c00025000001516,
  0x600c018ed00000000000000000000000003b3766ecc003b2000001517,
  0xc01780000000238470b371c23859a8e11c23800000000000025000001d18,
  0xe01c0000700e01c03807000000002ce000018000d19,
  0x29100e01c0000700e01c0380700000000013800018000d1a,
  0x60008e600251b,
  0xe01c0000700e01c0380700000000013800762000d1c,
  0x600078800251d,
  0x880960004404bb3f6784400000000013800b3a000d1e,
  0x880960004404b11012c440000000001380079a000d1f,
  0xed01c0007680e1da038768000000001380079a000d20,
  0x60ef1def300000000000000000000000003cb796f2c003ca000001521,
  0x880fc0004407e1101f8440000000001380079a000d22,
  0xa56002523,
  0x2d0da1b43686d0800000002d0000000000d24,
  0x52ca594b000000000001525,
  0x91b2340000000000000000b44000d26,
  0x1270000000000000091b2340000000000000000b44000d27,
  0x5a3b4768c00000000001528,
  0x652fa5f4bc0000000000000000000000003db7b6f6c005a4000001529,
  0x6000a5e00252a,
  0x3d97b6001ecbdb7b2f6dec80000000013800018000d2b,
  0x600092400252c,
  0x6533a674cc0000000000000000000000003e37c6f8c005a500000152d,
  0x6000a6600252e,
  0x3e17c6001f0be37c2f8df080000000013800018000d2f,
  0x611e23cf980000000000000000000000003e57caf9400328000001530,
  0x12315a000918ad2462b491800000000138007ce000d31,
  0x123164000918b22462c891800000000138007ce000d32,
  0x1bc01c000de00e378038de000000000138007ce000d33,
  0x611e23cf980000000000000000000000003e57caf940011b000001534,
  0xb4c002535,
  0xb536a400000000002d4000b4e000d36,
  0x5aab556a800000000001537,
  0x653ea7d4f80000000000000000000000003ed7dafb4005ab000001538,
  0x6000a7c002539,
  0x3eb7da001f5bed7d6fb5f580000000013800018000d3a,
  0x600094a00253b,
  0x6542a855080000000000000000000000003f77eefdc005ac00000153c,
  0x6000a8400253d,
  0x3f57ee001fabf77eafddfa80000000013800018000d3e,
  0x60007f000253f,
  0xb5a000d40,
  0x14f40000000000000000000000005aeb5d6b80053b000001541,
  0x6548a9152000000000000000000000000040d81b034005af000001542,
  0x6000a90002543,
  0x40b81a00205c0d8170360580000000013800018000d44,
  0x6000972002545,
  0x654ca9953000000000000000000000000041582b054005b0000001546,
  0x6000a98002547,
  0x41382a00209c158270560980000000013800018000d48,
  0x613b27706400000000000000000000000041883106000359000001549,
  0x13d18c0009e8c627a3189e80000000013800834000d4a,
  0x13d1960009e8cb27a32c9e80000000013800834000d4b,
  0x1db01c000ed80e3b6038ed80000000013800834000d4c,
  0x613b2770640000000000000000000000004188310600013800000154d,
  0x6554aa955000000000000000000000000041e83d078005b100000154e,
  0x6000aa800254f,
  0x41c83c0020e41e83907a0e00000000013800018000d50,
  0x6000998002551,
  0x6558ab15600000000000000000000000004288510a0005b2000001552,
  0x6000ab0002553,
  0x4268500021342884d0a21300000000013800018000d54,
  0x6000852002555,
  0x600c01936c0000000000000000000000005b3b676cc004d9000001556,
  0x864000d57,
  0x600c01803000000000000000000000000055fabf57c00025000001558,
  0xe01c0000700e01c0380700000000275000018000d59,
  0x600c018030000000000000000000000000563ac758c0002500000155a,
  0x600c0190d40000000000000000000000004348690d00043300000155b,
  0xc017800000002724e4b6b392725b49c93927200000000000025000001d5c,
  0xe01c0000700e01c03807000000002db000018000d5d,
  0x568ad15a00000000000155e,
  0x16e40000000000000000000000005b8b716e0005b700000155f,
  0x2dd5bab776eadd5bbb756eadd00000000000000000001d60,
  0xb78000d61,
  0x2de800000000d62,
  0x2b700e01c0000700e01c0380700000000013800018000d63,
  0xe01c0000700e1ac358070000000015c00056e000d64,
  0xb7c002565,
  0xb8370400000000002e0000b7e000d66,
  0x5c2b8570800000000001567,
  0xe01c0000700e01c0380700000000013800862000d68,
  0xe01c0000700e87d0f8070000000001380087a000d69,
  0x2e180e01c0000700e87d0f8070000000001380087a000d6a,
  0x2e200e01c0000700e87d0f8070000000001380087a000d6b,
  0xc0178000000000700e01d5bc075c501c0380700000000000025000001d6c,
  0xe01c0000700e87d0f80700000000275000b8c000d6d,
  0xe01c0000700e87d0f80700000000275000b8c000d6e,
  0xe01c0000700e87d0f80700000000275000b8c000d6f,
  0xb9172000000000002de800b8e000d70,
  0x6000af2002571,
  0xe01c002e55cab9572ae5000000002e4800018000d72,
  0x600c01803000000000000000000000000044188310400025000001573,
  0x600c0187940000000000000000000000005cbb9772c001e3000001574,
  0x600c0187940000000000000000000000005ccb99730001e3000001575,
  0x15b40000000000000000000000005cdb9b7340056b000001576,
  0x17400000000000000000000000005cfb9f73c005ce000001577,
  0x2e8dd1ba5746e8dd2ba3746e880000000000000000001d78,
  0xba6000d79,
  0x60009ee00257a,
  0x60009f600257b,
  0x222000000000000000000000000000000000000000000d7c,
  0x17580000000000000000000000005d5bab754005d400000157d,
  0xbae000d7e,
  0xc0178000000000700e01ce60075d801c0380700000000000025000001d7f,
  0xe01c0000700e8b5168070000000016b800bb2000d80,
  0xe01c0000700e8b5168070000000016b800bb2000d81,
  0xe01c0000700e8b5168070000000016b800bb2000d82,
  0xb09610000000000022c000bb4000d83,
  0x2c95900004407e1101f844000000000138008ba000d84,
  0x21d4400010ea20bbb7710e80000000130000bb6000d85,
  0x21d44a0010ea25bbb7790e80000000130000bb6000d86,
  0x21d2ee0010e9778c117d0e80000000130000bbe000d87,
  0x6000bc0002588,
  0x65e0bc1780000000000000000000000000511a23444005e1000001589,
  0x5e201c002f100ebc403af100000000013800a1c000d8a,
  0x62e75ceb9c000000000000000000000000593b2764c003a400000158b,
  0x4638c40010ea2043a8810e800000000138008c8000d8c,
  0x21d2ee0010e97743a5dd0e800000001a200044c000d8d,
  0x6594b296500000000000000000000000004688d11a0005e300000158e,
  0x6000b2800258f,
  0x4668d0002334688cd1a23300000000013800018000d90,
  0x6000bc8002591,
  0x65e4bc979000000000000000000000000051ba3746c005e5000001592,
  0x5e601c002f300ebcc03af300000000013800a30000d93,
  0x29100e01c0000700e5d4ba807000000000138005d2000d94,
  0x2f380e01c0000700e5d4ba807000000000138005d2000d95,
  0xc017800000002f45e8bd57a2f45e9bd17a2f400000000000025000001d96,
  0x60ef1df7b00000000000000000000000005ebbd77ac003ca000001597,
  0x88108000440841102104400000000013800bda000d98,
  0x880fc0004407e1101f84400000000013800bda000d99,
  0x14b0005ee0000000000000000000000000001d9a,
  0x91b2340000000000246000916000d9b,
  0x14ac00000000000000000000000052aa554a80052900000159c,
  0x91b2340000000000246000916000d9d,
  0x6000a5e00259e,
  0x6000a6600259f,
  0x5aab556a8000000000015a0,
  0x17c40000000000000000000000005f0be17c0005ef0000015a1,
  0x2f95f2be77caf95f3be57caf900000000000000000001da2,
  0xbe8000da3,
  0x2fa800000000da4,
  0x6000a7c0025a5,
  0x6000a840025a6,
  0x14f40000000000000000000000005f6bed7d80053b0000015a7,
  0xbf17e000000000002fa800bee000da8,
  0x6000a900025a9,
  0x6000a980025aa,
  0x6000aa80025ab,
  0x6000ab00025ac,
  0xe01c0000700e6d8db0070000000021780085c000dad,
  0x2b700e01c0000700e6e0dc007000000000138006de000dae,
  0x2fc80e01c0000700e6e0dc007000000000138006de000daf,
  0xc017800000002fd5fabf97eafd5fbbf57eafd00000000000025000001db0,
  0xb720025b1,
  0x2ff5febfd7faff000000002fe800000000db2,
  0x5bab756e8000000000015b3,
  0xacf59c0000000000000000bfe000db4,
  0x2ae80000000000000acf59c0000000000000000bfe000db5,
  0x1384000000000000000000000000600c01800004df0000015b6,
  0x300e01c0580700e02c038070080000000000000000001db7,
  0x5c2b85708000000000015b8,
  0x1814000000000000000000000000604c09810006030000015b9,
  0x303606c0f81b03607c0d81b0300000000000000000001dba,
  0xc10000dbb,
  0x304800000000dbc,
  0xe01c0000700e01c03807000000000138009de000dbd,
  0x9e0000dbe,
  0x2e180e01c0000700e01c0380700000000013800018000dbf,
  0x600c0193b40000000000000000000000004ec9d93b0004eb0000015c0,
  0x183000000000000000000000000060bc1782c0060a0000015c1,
  0xc1a000dc2,
  0xc0178000000000700e01d1040760e01c0380700000000000025000001dc3,
  0xe01c0000700e9e53c807000000001be800c1e000dc4,
  0xe01c0000700e9e53c807000000001be800c1e000dc5,
  0xe01c0000700e9e53c807000000001be800c1e000dc6,
  0xc238440000000000304800c20000dc7,
  0xba00025c8,
  0x309e13c2784f0980000000309000000000dc9,
  0x5d1ba3744000000000015ca,
  0xaff5fc0000000000000000c28000dcb,
  0x1c300000000000000aff5fc0000000000000000c28000dcc,
  0xb4c000000000000000000000000615c2b854002d10000015cd,
  0xbac0025ce,
  0x30be17c2f85f0b8000000030b000000000dcf,
  0x502a05408000000000015d0,
  0xb4c000000000000000000000000618c31860002d10000015d1,
  0x22d80e01c0000700e01c0380700000000013800018000dd2,
  0x600c019418000000000000000000000000505a0b414005040000015d3,
  0x17580000000000000000000000005d5bab754005d40000015d4,
  0x621943343000000000000000000000000050ba1742c004610000015d5,
  0x21d2ee0010e97743a5dd0e80000000013800a1a000dd6]

def nameStates3 : List Nat := [
  0x21d4400010ea2043a8810e80000000013800a1a000dd7,
  0x2f601c0017b00e5ec0397b00000000013800a1a000dd8,
  0x621943343000000000000000000000000050ba1742c002160000015d9,
  0x65e0bc1780000000000000000000000000511a23444006190000015da,
  0x6000bc00025db,
  0x50fa2200287d11a1f4468780000000013800018000ddc,
  0x6000b280025dd,
  0x65e4bc979000000000000000000000000051ba3746c0061a0000015de,
  0x6000bc80025df,
  0x519a360028cd1ba3346e8c80000000013800018000de0,
  0xc36000de1,
  0xe01c0000700ec3b8740700000000013800c38000de2,
  0x30f00e01c0000700ec3b8740700000000013800c38000de3,
  0x30f80e01c0000700ec3b8740700000000013800c38000de4,
  0x8809600310621c4188710000000000a900010e000de5,
  0x61582b0560000000000000000000000000524a49490001560000015e6,
  0x60ef1de584000000000000000000000000622c458880015f0000015e7,
  0x127000000000000000000000000000000000000000000de8,
  0xbe20025e9,
  0x312624c498931200000000311800000000dea,
  0x5f2be57c8000000000015eb,
  0xb536a40000000000000000c4a000dec,
  0x1f480000000000000b536a40000000000000000c4a000ded,
  0x14f4000000000000000000000000626c4d8980053b0000015ee,
  0x313e27c5189f13e28c4f89f1380000000000000000001def,
  0xc578ac0000000000315000c52000df0,
  0x18b800000000000000000000000062dc5b8b40062c0000015f1,
  0xc5e000df2,
  0xc60000df3,
  0xe01c0000700ec658c80700000000013800c62000df4,
  0x31980e01c0000700ec658c80700000000013800c62000df5,
  0x31a00e01c0000700ec658c80700000000013800c62000df6,
  0x16e8006350000000000000000000000000001df7,
  0xacf59c00000000002b3000aca000df8,
  0x16e40000000000000000000000005b8b716e0005b70000015f9,
  0xacf59c00000000002b3000aca000dfa,
  0xb917200000000000000000c6c000dfb,
  0x2e200000000000000b917200000000000000000c6c000dfc,
  0xc0a0025fd,
  0x31c638c718e31c0000000031b800000000dfe,
  0x606c0d818000000000015ff,
  0xb837040000000000000000c72000e00,
  0x21c80000000000000b837040000000000000000c72000e01,
  0x15b400000000000000000000000063ac758e80056b000001602,
  0x31de3bc798ef1de3cc778ef1d80000000000000000001e03,
  0xc18002604,
  0x31f63ec7d8fb1f0000000031e800000000e05,
  0x601c0380400000000001606,
  0x138400000000000000000000000063fc7f8fc004df000001607,
  0x27980e01c0000700e01c0380700000000013800018000e08,
  0x600c0195e4000000000000000000000000578af15e000577000001609,
  0x1908000000000000000000000000641c839040064000000160a,
  0xc86000e0b,
  0x1744006440000000000000000000000000001e0c,
  0xaff5fc00000000002bf000afa000e0d,
  0x17400000000000000000000000005cfb9f73c005ce00000160e,
  0xaff5fc00000000002bf000afa000e0f,
  0x1408006450000000000000000000000000001e10,
  0xb09610000000000022c000bb4000e11,
  0xb09610000000000022c000bb4000e12,
  0x6000bc0002613,
  0x6000bc8002614,
  0x1920000000000000000000000000647c8f91c00646000001615,
  0x600c01992c00000000000000000000000064ac9592800649000001616,
  0xe01c0000700e01c0380700000000013800c98000e17,
  0xe01c0000700e01c0380700000000013800c9a000e18,
  0xc9c000e19,
  0x880fc0004407eb3f94044000000000f8800c9e000e1a,
  0x8810800044084b3f94444000000000f8800c9e000e1b,
  0x880960004404bb3f67844000000000f8800c9e000e1c,
  0x17c8006520000000000000000000000000001e1d,
  0xb536a400000000002d4000b4e000e1e,
  0x17c40000000000000000000000005f0be17c0005ef00000161f,
  0xb536a400000000002d4000b4e000e20,
  0xbf17e00000000000000000ca6000e21,
  0x25900000000000000bf17e00000000000000000ca6000e22,
  0x1958000000000000000000000000655cab95400654000001623,
  0x32be57cb195f2be58caf95f2b80000000000000000001e24,
  0xcb2000e25,
  0xc5c002626,
  0x32de5bcb796f2d8000000032d000000000e27,
  0x627c4f89c00000000001628,
  0x14f400000000000000000000000065ccb99700053b000001629,
  0x197c00000000000000000000000065ecbd9780065d00000162a,
  0x600c019988000000000000000000000000661cc39840066000000162b,
  0xe01c0000700e01c0380700000000013800cc6000e2c,
  0xe01c0000700e01c0380700000000013800cc8000e2d,
  0xcca000e2e,
  0x2ae800000000000000000000000000000000000000000e2f,
  0x183000000000000000000000000060bc1782c0060a000001630,
  0x1818006660000000000000000000000000001e31,
  0xb8370400000000002e0000b7e000e32,
  0x1814000000000000000000000000604c0981000603000001633,
  0xb8370400000000002e0000b7e000e34,
  0xc238440000000000000000cce000e35,
  0x27a00000000000000c238440000000000000000cce000e36,
  0x1804006680000000000000000000000000001e37,
  0xb9172000000000002de800b8e000e38,
  0xb9172000000000002de800b8e000e39,
  0xc8400263a,
  0x33566acd59ab3500000000334800000000e3b,
  0x63bc778ec0000000000163c,
  0x15b400000000000000000000000066bcd79ac0056b00000163d,
  0x1c3000000000000000000000000000000000000000000e3e,
  0x22e000000000000000000000000000000000000000000e3f,
  0xcd8002640,
  0xcdf9bc0000000000337000cda000e41,
  0x670ce19c000000000001642,
  0x6000c96002643,
  0xe01c00339672ce59cb3900000000338800018000e44,
  0x600c0180300000000000000000000000005e8bd17a000025000001645,
  0x600c0191b4000000000000000000000000673ce79cc0046b000001646,
  0x600c0191b4000000000000000000000000674ce99d00046b000001647,
  0x1920000000000000000000000000675ceb9d400646000001648,
  0x60ef1df7b00000000000000000000000005ebbd77ac003ca000001649,
  0x880960004404b11012c4400000000013800bda000e4a,
  0xed01c0007680e1da0387680000000013800bda000e4b,
  0x1f4800000000000000000000000000000000000000000e4c,
  0x18b800000000000000000000000062dc5b8b40062c00000164d,
  0xcac00264e,
  0x33be77cef9df3b8000000033b000000000e4f,
  0x657caf95c00000000001650,
  0xc578ac0000000000000000cf0000e51,
  0x2a300000000000000c578ac0000000000000000cf0000e52,
  0x14f4000000000000000000000000679cf39e40053b000001653,
  0x189c0067a0000000000000000000000000001e54,
  0xbf17e000000000002fa800bee000e55,
  0xbf17e000000000002fa800bee000e56,
  0xcf6002657,
  0xcfd9f8000000000033e800cf8000e58,
  0x67fcff9fc00000000001659,
  0x6000cc400265a,
  0xe01c00340e81d03a074080000000340000018000e5b,
  0x600c0180300000000000000000000000005fabf57e80002500000165c,
  0x600c019378000000000000000000000000682d05a08004dc00000165d,
  0x600c019378000000000000000000000000683d07a0c004dc00000165e,
  0x197c000000000000000000000000684d09a100065d00000165f,
  0x21c800000000000000000000000000000000000000000e60,
  0x1908000000000000000000000000641c8390400640000001661,
  0x2e2000000000000000000000000000000000000000000e62,
  0x18ec006850000000000000000000000000001e63,
  0xc238440000000000304800c20000e64,
  0xc238440000000000304800c20000e65,
  0x670ce19c000000000001666,
  0x1a20000000000000000000000000687d0fa1c00686000001667,
  0x344e89d15a2744e8ad13a274480000000000000000001e68,
  0xd16000e69,
  0x346000000000e6a,
  0xc0178000000000700e01d7a00768d01c0380700000000000025000001e6b,
  0xe01c0000700ec3b87407000000002ce000d1c000e6c,
  0xe01c0000700ec3b87407000000002ce000d1c000e6d,
  0xe01c0000700ec3b87407000000002ce000d1c000e6e,
  0xd21a400000000000346000d1e000e6f,
  0x195c006910000000000000000000000000001e70,
  0xc578ac0000000000315000c52000e71,
  0x1958000000000000000000000000655cab95400654000001672,
  0xc578ac0000000000315000c52000e73,
  0x259000000000000000000000000000000000000000000e74,
  0x67fcff9fc00000000001675,
  0x1a50000000000000000000000000693d27a4c00692000001676,
  0x34ae95d2da574ae96d2ba574a80000000000000000001e77,
  0xd2e000e78,
  0x34c000000000e79,
  0xc0178000000000700e01d7e80769901c0380700000000000025000001e7a,
  0xe01c0000700ec658c807000000002db000d34000e7b,
  0xe01c0000700ec658c807000000002db000d34000e7c,
  0xe01c0000700ec658c807000000002db000d34000e7d,
  0xd39a70000000000034c000d36000e7e,
  0x27a000000000000000000000000000000000000000000e7f,
  0xd10002680,
  0x34f69ed3da7b4f0000000034e800000000e81,
  0x689d13a2400000000001682,
  0xcdf9bc0000000000000000d3e000e83,
  0x2f380000000000000cdf9bc0000000000000000d3e000e84,
  0x19200000000000000000000000006a0d41a8000646000001685,
  0x350ea1d45a8750ea2d43a875080000000000000000001e86,
  0x30f00e01c0000700e01c0380700000000013800018000e87,
  0x600c01992c00000000000000000000000064ac9592800649000001688,
  0x1a940000000000000000000000006a4d49a90006a3000001689,
  0xd4c000e8a,
  0x2a3000000000000000000000000000000000000000000e8b,
  0xd2800268c,
  0x3546a8d51aa35400000000353800000000e8d,
  0x695d2ba540000000000168e,
  0xcfd9f80000000000000000d52000e8f,
  0x2fc80000000000000cfd9f80000000000000000d52000e90,
  0x197c0000000000000000000000006aad55aa80065d000001691,
  0x355eabd59aaf55eacd57aaf5580000000000000000001e92,
  0x31980e01c0000700e01c0380700000000013800018000e93,
  0x600c019988000000000000000000000000661cc398400660000001694,
  0x1abc0000000000000000000000006aed5dab8006ad000001695,
  0xd60000e96,
  0x1a24006b10000000000000000000000000001e97,
  0xcdf9bc0000000000337000cda000e98,
  0x1a20000000000000000000000000687d0fa1c00686000001699,
  0xcdf9bc0000000000337000cda000e9a,
  0xd21a400000000000000000d64000e9b,
  0x30f80000000000000d21a400000000000000000d64000e9c,
  0xd4a00269d,
  0x35a6b4d69ad35a00000000359800000000e9e,
  0x6a1d43a840000000000169f,
  0x19200000000000000000000000006b5d6bad4006460000016a0,
  0x1a54006b60000000000000000000000000001ea1,
  0xcfd9f8000000000033e800cf8000ea2,
  0x1a50000000000000000000000000693d27a4c006920000016a3,
  0xcfd9f8000000000033e800cf8000ea4,
  0xd39a700000000000000000d6e000ea5,
  0x31a00000000000000d39a700000000000000000d6e000ea6,
  0xd5e0026a7,
  0x35ceb9d73ae75c8000000035c000000000ea8,
  0x6abd57aac000000000016a9,
  0x197c0000000000000000000000006bad75ae80065d0000016aa,
  0x2f3800000000000000000000000000000000000000000eab,
  0x1a940000000000000000000000006a4d49a90006a30000016ac,
  0x1a84006bb0000000000000000000000000001ead,
  0xd21a400000000000346000d1e000eae,
  0xd21a400000000000346000d1e000eaf,
  0x2fc800000000000000000000000000000000000000000eb0,
  0x1abc0000000000000000000000006aed5dab8006ad0000016b1,
  0x1aac006bc0000000000000000000000000001eb2,
  0xd39a70000000000034c000d36000eb3,
  0xd39a70000000000034c000d36000eb4,
  0x30f800000000000000000000000000000000000000000eb5,
  0x31a000000000000000000000000000000000000000000eb6]

/-- The states that are reached. -/
def nameStates : List Nat :=
  nameStates0 ++ nameStates1 ++ nameStates2 ++ nameStates3

end Jbo.Morf
