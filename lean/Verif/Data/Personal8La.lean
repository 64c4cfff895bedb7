/-
Generated by tools/gen_personal.py from resources/bin/personal.
-/
namespace Verif.Data

/-- resources/bin/personal/personal_la, 1276 pieces of 176 bytes -/
def personal_la : List Nat := List.flatten [
  [0x100000000000000000f0f000000ff0000000000000000000000000000000000000000,
  0x100000000000000000000000000000000000000000000000000000000000000000000000000000000000000000000000000000000000000000000000100000022004100410f0f0300001f0000000000000000000000000000000000000001,
  0x200000000000000000000000000000000000000000000000000000000000000000000000000000000000000000000000000000000000000000000000100000022004100410f0f0300001f0000000000000000000000000000000000000002,
  0x3000000000000000000000000000000000000000000000000000000000000000000000000000000000000000000000000000000000000000000000002038a0022004100410f0f0300001f0000000000000000000000000000000000000003,
  0x40000000000000000000000000000000000000000000000000000000000000000000000000000000000000000000000000000000000000000000000010000005e004200420f0f0300001f0000000000000000000000000000000000000004,
  0x50000000000000000000000000000000000000000000000000000000000000000000000000000000000000000000000000000000000000000000000010000005e004200420f0f0300001f0000000000000000000000000000000000000005,
  0x6000000000000000000000000000000000000000000000000000000000000000000000000000000000000000000000000000000000000000000000003038b005e004200420f0f0300001f0000000000000000000000000000000000000006,
  0x70000000000000000000000000000000000000000000000000000000000000000000000000000000000000000000000000000000000000000000000010000002c004300430f0f0300001f0000000000000000000000000000000000000007,
  0x80000000000000000000000000000000000000000000000000000000000000000000000000000000000000000000000000000000000000000000000010000002c004300430f0f0300001f0000000000000000000000000000000000000008,
  0x9000000000000000000000000000000000000000000000000000000000000000000000000000000000000000000000000000000000000000000000002038d002c004300430f0f0300001f0000000000000000000000000000000000000009,
  0xa00000000000000000000000000000000000000000000000000000000000000000000000000000000000000000000000000000000000000000000000100000032001300130f0f0000007f000000000000000000000000000000000000000a,
  0xb0000000000000000000000000000000000000000000000000000000000000000000000000000000000000000000000000000000000000000000000010000003d003d003d0f0f0000007f000000000000000000000000000000000000000b,
  0xc0000000000000000000000000000000000000000000000000000000000000000000000000000000000000000000000000000000000000000000000010000006e000e000e0f0f0000007f000000000000000000000000000000000000000c,
  0xd00000000000000000000000000000000000000000000000000000000000000000000000000000000000000000000000000000000000000000000000100000000000000000f0f0000007f000000000000000000000000000000000000000d,
  0xe00000000000000000000000000000000000000000000000000000000000000000000000000000000000000000000000000000000000000000000000100000000000000000f0f0000007f000000000000000000000000000000000000000e,
  0xf000000000000000000000000000000000000000000000000000000000000000000000000000000000000000000000000000000000000000000000002038e0000000000000f0f0000007f000000000000000000000000000000000000000f,
  0x1000000000000000000000000000000000000000000000000000000000000000000000000000000000000000000000000000000000000000000000000100000000000000000f0f0000007f0000000000000000000000000000000000000010,
  0x1100000000000000000000000000000000000000000000000000000000000000000000000000000000000000000000000000000000000000000000000100000000000000000f0f0000007f0000000000000000000000000000000000000011,
  0x12000000000000000000000000000000000000000000000000000000000000000000000000000000000000000000000000000000000000000000000002038f0000000000000f0f0000007f0000000000000000000000000000000000000012,
  0x1300000000000000000000000000000000000000000000000000000000000000000000000000000000000000000000000000000000000000000000000203900000000000000f0f0000007f0000000000000000000000000000000000000013,
  0x1400000000000000000000000000000000000000000000000000000000000000000000000000000000000000000000000000000000000000000000000203910000000000000f0f0000007f0000000000000000000000000000000000000014,
  0x1500000000000000000000000000000000000000000000000000000000000000000000000000000000000000000000000000000000000000000000000100000000000000000f0f0000007f0000000000000000000000000000000000000015,
  0x1600000000000000000000000000000000000000000000000000000000000000000000000000000000000000000000000000000000000000000000000100000000000000000f0f0000007f0000000000000000000000000000000000000016,
  0x1700000000000000000000000000000000000000000000000000000000000000000000000000000000000000000000000000000000000000000000000100000000000000000f0f0000007f0000000000000000000000000000000000000017,
  0x1800000000000000000000000000000000000000000000000000000000000000000000000000000000000000000000000000000000000000000000000100000000000000000f0f0000007f0000000000000000000000000000000000000018,
  0x10484009002e0420000000000000000000000000000000000000000000000000000000000000000000000000000000000000000000000000000000000000000000000000000000000038003800380038000000190000000000ac00000000000000000000000000000441201000000008cc30131200000000000000000485100008000b82a3a6c027003c00280070420a0392001f0009000906050032007f000000ec0000008002910c0c32325a2837230019,
  0x10585009002e04200000000000000000000000000000000000000000000000000000000000000000000000000000000000000000000000000000000000000000000000000000000000390039003900390000001a0000000000ac00000000000000000000000000000441201100000008cc30131200000000000000022485100048000b82a3aec327012c005000f34202039b001f0009000906050032007f00000000000000c0035f0c0c505a6e375a3c001a,
  0x1b000000000000000000000000000000000000000000000000000000000000000000000000000000000000000000000000000000000000000000000002039c0092000800080f0f0000007f000000000000000000000000000000000000001b,
  0x1c000000000000000000000000000000000000000000000000000000000000000000000000000000000000000000000000000000000000000000000002039d0092000800080f0f0000007f000000000000000000000000000000000000001c,
  0x1d00000000000000000000000000000000000000000000000000000000000000000000000000000000000000000000000000000000000000000000000100000037004f00260f0f030000fe000000000000000000000000000000000000001d,
  0x1e00000000000000000000000000000000000000000000000000000000000000000000000000000000000000000000000000000000000000000000000100000037004f00260f0f030000fe000000000000000000000000000000000000001e,
  0x1f0000000000000000000000000000000000000000000000000000000000000000000000000000000000000000000000000000000000000000000000010000007d004f00260f0f030000fe000000000000000000000000000000000000001f,
  0x2000000000000000000000000000000000000000000000000000000000000000000000000000000000000000000000000000000000000000000000000100000037004f00260f0f030000000000000000000000000000000000000000000020,
  0x2100000000000000000000000000000000000000000000000000000000000000000000000000000000000000000000000000000000000000000000000100000037004f00260f0f030000000000000000000000000000000000000000000021,
  0x220000000000000000000000000000000000000000000000000000000000000000000000000000000000000000000000000000000000000000000000010000007d004f00260f0f030000000000000000000000000000000000000000000022,
  0x1e8092f04fe1e20000000000000000000000000000000000000000000000000000000000000000000000000000000000000000000000000000000000000000000000000000000c800000000000000c8000000230000000000ad0000000000000000000000000000142c30200002144aee1acb6600000000000000001280908088109a86ab2ecc3b004b003c0071490100000084006200380606048c00bf0000005100000002027d1111413c23302d460023,
  0x1f8192f04fe1e20000000000000000000000000000000000000000000000000000000000000000000000000000000000000000000000000000000000000000000000000000000c900000000000000c9000000240000000000ad0000000000000000000000000000142c30210002144aee1acb6600000000000000001280908088109a86ab2ecf3b0190008200f249010000006d006200380606048c00bf0000005100000003034b11115a5f3c49465f0024,
  0x2200013040c24000000000000000000000000000000000000000000000000000000000000000000000000000000000000000000000000000000000000000000000000000000000000a80000000000a80000002500000000002500000000000000000000000000000002002204800810cc109006000000000000000010103000120051c48328a0000063003c003c4502039e0046001200120505003200bf000000f90000004001eb09094132412829260025,
  0x2301113040e24000000000000000000000000000000000000000000000000000000000000000000000000000000000000000000000000000000000000000000000000000000000000a90000000000a90000002600000000002500000000000000000000000000000006003204820812ce1090060000000000000000101030001200d1c48328ab0000c7006e00b14202039f0046001200120505003200bf000000f900000440028709096451644b4c490026,
  0x270000000000000000000000000000000000000000000000000000000000000000000000000000000000000000000000000000000000000000000000010000008400ac00380f0f040000bf0000000000000000000000000000000000000027,
  0x280000000000000000000000000000000000000000000000000000000000000000000000000000000000000000000000000000000000000000000000010000007700ac00380f0f040000bf0000000000000000000000000000000000000028,
  0x1400c042500000000000000000000000000000000000000000000000000000000000000000000000000000000000000000000000000000000000000000000000000002200220000002200220022000000290000000000290000000000000000000000000000080000340000003b0c54100000000000000000008000540007000186d3a00040004b005000314601000000970027002704040032007f000000000000004001f50203281e37232d280029,
  0x1011400c0425000000000000000000000000000000000000000000000000000000000000000000000000000000000000000000000000000000000000000000000000000023002300000023002300230000002a0000000000290000000000000000000000000000080000340000003b0c54100000000000000000008000540007000186d3a10340022600a0009f4601000000970027002704040032007f0000000000000080029102034b415a46504b002a,
  0x2b00000000000000000000000000000000000000000000000000000000000000000000000000000000000000000000000000000000000000000000000100000032002200220f0f0300007f000000000000000000000000000000000000002b,
  0x2c00000000000000000000000000000000000000000000000000000000000000000000000000000000000000000000000000000000000000000000000100000001002200220f0f0300007f000000000000000000000000000000000000002c,
  0x2d0000000000000000000000000000000000000000000000000000000000000000000000000000000000000000000000000000000000000000000000010000001b002200220f0f0300007f000000000000000000000000000000000000002d,
  0x50180401210000000000000000000000000000000000000000000000000000000000000000000000000000000000000000000000000000000000000000000000000000003500350035003500350000002e00000000002e000000000000000000000000000000002000180000000c5410030000000000000000410016000004088493a388000036001e00394001000000060057001b07030032007f000000570056000401eb0b06372d19374623002e,
  0x101050180401210000000000000000000000000000000000000000000000000000000000000000000000000000000000000000000000000000000000000000000000000000003600360036003600360000002f00000000002e000000000000000000000000000080002002180000000c5410030000000000000000410016000004088493a38b0001270064008e4001000000060057001b07030032007f000000570056001802870b06503c1e505f3c002f,
  0x3000000000000000000000000000000000000000000000000000000000000000000000000000000000000000000000000000000000000000000000000100000000000000000f0f0000007f0000000000000000000000000000000000000030,
  0x3100000000000000000000000000000000000000000000000000000000000000000000000000000000000000000000000000000000000000000000000100000000000000000f0f0000007f0000000000000000000000000000000000000031,
  0x3200000000000000000000000000000000000000000000000000000000000000000000000000000000000000000000000000000000000000000000000203a0009f004700080f0f0000007f0000000000000000000000000000000000000032,
  0x3300000000000000000000000000000000000000000000000000000000000000000000000000000000000000000000000000000000000000000000000203a1009f004700080f0f0000007f0000000000000000000000000000000000000033,
  0x3400000000000000000000000000000000000000000000000000000000000000000000000000000000000000000000000000000000000000000000000303a2007f006500350f0f0000007f0000000000000000000000000000000000000034,
  0x3500000000000000000000000000000000000000000000000000000000000000000000000000000000000000000000000000000000000000000000000203a4007f006500070f0f0000007f0000000000000000000000000000000000000035,
  0x180202544460d200000000000000000000000000000000000000000000000000000000000000000000000000000000000000000000000000000000000000000000000000000004400440044004400440000003600000000003600000000000000000000000000000010002000020004ce13087a0000000000000000000010820880299a8b23801700c400500040420100000021000d000605020032007f000000000000010001eb0a0a3241373034320036,
  0x190302544460d200000000000000000000000000000000000000000000000000000000000000000000000000000000000000000000000000000000000000000000000000000004500450045004500450000003700000000003600000000000000000000000000040010002100022004ce1308fa0000000000000000000018820880299a8b23831702fe00aa00af410100000021000d000605020032007f000000000000020002870a0a505f554e52500037,
  0x3800000000000000000000000000000000000000000000000000000000000000000000000000000000000000000000000000000000000000000000000100000000000000000f0f0000007f0000000000000000000000000000000000000038,
  0x3900000000000000000000000000000000000000000000000000000000000000000000000000000000000000000000000000000000000000000000000100000000000000000f0f0000007f0000000000000000000000000000000000000039,
  0x3a00000000000000000000000000000000000000000000000000000000000000000000000000000000000000000000000000000000000000000000000203a5009a001200160f0f0500003f000000000000000000000000000000000000003a,
  0x3b00000000000000000000000000000000000000000000000000000000000000000000000000000000000000000000000000000000000000000000000303a6009a001200160f0f0500003f000000000000000000000000000000000000003b,
  0x3c000000000000000000000000000000000000000000000000000000000000000000000000000000000000000000000000000000000000000000000001000000210006000b0f0f0300007f000000000000000000000000000000000000003c,
  0x3d000000000000000000000000000000000000000000000000000000000000000000000000000000000000000000000000000000000000000000000001000000210006000b0f0f0300007f000000000000000000000000000000000000003d,
  0x3e000000000000000000000000000000000000000000000000000000000000000000000000000000000000000000000000000000000000000000000001000000210006000b0f0f0300007f000000000000000000000000000000000000003e,
  0x100091904f60c00000000000000000000000000000000000000000000000000000000000000000000000000000000000000000000000000000000000000000000000000003a000000000000003a003a0000003f00000000003f0000000000000000000000000000100a202200020162ce1848020000000000000000080011c0f800018683ae403b00c3005a003e4501000000620027001c08080332003f000000f80000010001cd0d0d37695a0f1419003f,
  0x100091906f60c00000000000000000000000000000000000000000000000000000000000000000000000000000000000000000000000000000000000000000000000000003b000000000000003b003b0000004000000000003f0000000000000000000000000000100a202200020166ce1848020000000000000000080011e0f800018683ae403b02350082008c4501000000620027001c08080332003f000000f80000020002910d0d4678691e23280040,
  0x110191906f60c00000000000000000000000000000000000000000000000000000000000000000000000000000000000000000000000000000000000000000000000000003c000000000000003c003c0000004100000000003f0000000000000000000000000000100e203300020166ce1848020000000000000000080011e0f800118683ae433b01e0009600fa450203a800620027001c08080332003f000000f800000300035f0d0d5f87782d32370041,
  0x200000217580a0000000000000000000000000000000000000000000000000000000000000000000000000000000000000000000000000000000000000000000000000009a009a009a0000009a009a00000042000000000042000000000000000000000000000000208001022100804c30e4860000000000000000000298000a010e8687e2803b00c30050003d4701000000500063003e08080332003f000000e60000000401f501012323233250460042,
  0x200000217580a0000000000000000000000000000000000000000000000000000000000000000000000000000000000000000000000000000000000000000000000000009b009b009b0000009b009b00000043000000000042000000000000000000000000000000208001022100804c30e4860000000000000004000298000a010e8687e2803b02c10096008e4701000000500063003e08080332003f000000e600000008029101013c322d4664500043,
  0x32900021f580a0000000000000000000000000000000000000000000000000000000000000000000000000000000000000000000000000000000000000000000000000009c009c009c0000009c009c000000440000000000420000000000000000000000000000e0208801022100804c30e486000000000000000400029a000e410e8687e2833b051400a000fd4701000000500063003e08080332003f000000e60000000c035f010155413750825a0044,
  0x4500000000000000000000000000000000000000000000000000000000000000000000000000000000000000000000000000000000000000000000000100000000000000000f0f0000007f0000000000000000000000000000000000000045,
  0x4600000000000000000000000000000000000000000000000000000000000000000000000000000000000000000000000000000000000000000000000100000000000000000f0f0000007f0000000000000000000000000000000000000046,
  0x4700000000000000000000000000000000000000000000000000000000000000000000000000000000000000000000000000000000000000000000000100000000000000000f0f0000007f0000000000000000000000000000000000000047,
  0x800864010400000000000000000000000000000000000000000000000000000000000000000000000000000000000000000000000000000000000000000000000000000000000000aa0000000000aa00000048000000000048000000000000000000000000000010104000024020000c5100790000000000000002000036000280209a9ba9000001c7005a004341010000002c0040001d09090532007f000000f50000040001eb030a6432462328280048,
  0x901864010400000000000000000000000000000000000000000000000000000000000000000000000000000000000000000000000000000000000000000000000000000000000000ab0000000000ab00000049000000000048000000000000000000000000000018104000024020000c5100790000000000000002000036000280209a9ba90300022600a000b441010000002c0040001d09090532007f000000f5000008000287030a7850644146500049,
  0x220080203402a0000000000000000000000000000000000000000000000000000000000000000000000000000000000000000000000000000000000000000000000000002e002e002e002e002e002e0000004a00000000004a000000000000000000000000000000001808001040800c10c406000000000000000200021000084109858370802900c80028003c450203a90008000500450a0a0332007f000000e50000001001f504051e1e14645028004a,
  0x220080203402a0000000000000000000000000000000000000000000000000000000000000000000000000000000000000000000000000000000000000000000000000002f002f002f002f002f002f0000004b00000000004a000000000000000000000000000040001808001040800c10c4060000000000000006000210000841098583708029041a00640089450203aa0008000500450a0a0332007f000000e500000020029104052d2d23735f37004b,
  0x321080a03402a00000000000000000000000000000000000000000000000000000000000000000000000000000000000000000000000000000000000000000000000000030003000300030003000300000004c00000000004a000000000000000000000000000040009c09001040800c10c406000000000000000600021000084109858370832b0bb8008c00f8450203ab0008000500450a0a0332007f000000e500000030035f040541372d827850004c,
  0x20c003000404000000000000000000000000000000000000000000000000000000000000000000000000000000000000000000000000000000000000000000000000000000000000000000001700170000004d00000000004d000000000000000000000000000044480000008008108c109086000000000000000010001000001001c4a3203800012c00640052420203ac00310012003205050032007f000000000000004001eb090941415a375532004d,
  0x31d003010404000000000000000000000000000000000000000000000000000000000000000000000000000000000000000000000000000000000000000000000000000000000000000000001800180000004e00000000004d0000000000000000000000000000c4c8000002800810bc109087000000000000000110001000001001c4a3203b0403b600aa00af420203ad00310012003205050032007f000000000000008002870909505069466441004e,
  0x4f00000000000000000000000000000000000000000000000000000000000000000000000000000000000000000000000000000000000000000000000203ae00900014000c0f0f0000007f000000000000000000000000000000000000004f,
  0x5000000000000000000000000000000000000000000000000000000000000000000000000000000000000000000000000000000000000000000000000303af00900014000c0f0f0000007f0000000000000000000000000000000000000050,
  0x840440800040400000000000000000000000000000000000000000000000000000000000000000000000000000000000000000000000000000000000000000000000000000000b100000000000000b100000051000000000051000000000000000000000000000000410040001040000c1003000000008000000000000510000000018603274000003c001e00414701000000940005002a0a0a003200ff000000e90000010001e1080c375f2d4623190051,
  0x850540800040c00000000000000000000000000000000000000000000000000000000000000000000000000000000000000000000000000000000000000000000000000000000b200000000000000b200000052000000000051000000000000000000000000000000410040001040000c18030000000080000000000405100000000186032743000258006400a34701000000940005002a0a0a003200ff000000e900000200027d080c4678465f3c320052,
  0x5300000000000000000000000000000000000000000000000000000000000000000000000000000000000000000000000000000000000000000000000203b10080002700330f0f0000007f0000000000000000000000000000000000000053,
  0x5400000000000000000000000000000000000000000000000000000000000000000000000000000000000000000000000000000000000000000000000100000000000000000f0f0000007f0000000000000000000000000000000000000054,
  0x5500000000000000000000000000000000000000000000000000000000000000000000000000000000000000000000000000000000000000000000000100000000000000000f0f0000007f0000000000000000000000000000000000000055,
  0x5600000000000000000000000000000000000000000000000000000000000000000000000000000000000000000000000000000000000000000000000100000000000000000f0f0000007f0000000000000000000000000000000000000056,
  0x5700000000000000000000000000000000000000000000000000000000000000000000000000000000000000000000000000000000000000000000000100000000000000000f0f0000007f0000000000000000000000000000000000000057,
  0x5800000000000000000000000000000000000000000000000000000000000000000000000000000000000000000000000000000000000000000000000203b20000000000000f0f0000007f0000000000000000000000000000000000000058,
  0x5900000000000000000000000000000000000000000000000000000000000000000000000000000000000000000000000000000000000000000000000203b30000000000000f0f0000007f0000000000000000000000000000000000000059,
  0x5a0000000000000000000000000000000000000000000000000000000000000000000000000000000000000000000000000000000000000000000000010000008e005c004b0f0f0500007f000000000000000000000000000000000000005a,
  0x5b0000000000000000000000000000000000000000000000000000000000000000000000000000000000000000000000000000000000000000000000010000008e005c004b0f0f0500007f000000000000000000000000000000000000005b,
  0x3400970017420000000000000000000000000000000000000000000000000000000000000000000000000000000000000000000000000000000000000000000000000000088008800000088000000880000005c00000000005c0000000000000000000000000000100a40020600016a0c5009000000000000000000000034c0020000c69fb0003800010082003e46010000001a001a001a0b0b0332007f000000000000010001f503072364501e231e005c,
  0x3400970417420000000000000000000000000000000000000000000000000000000000000000000000000000000000000000000000000000000000000000000000000000089008900000089000000890000005d00000000005c0000000000000000000000000000100a40020600016a4c5009000000000000000000000034c20a0000c69fb00038000100a0008e46010000001a001a001a0b0b0332007f00000000000002000291030737735f2d322d005d,
  0x350197041f46020000000000000000000000000000000000000000000000000000000000000000000000000000000000000000000000000000000000000000000000000008a008a0000008a0000008a0000005e00000000005c0000000000000000000000000000100a40130600016a4c504b020000000000000000004034c28a0018c69fb0033b0195009600fa460203b40082008200820b0b0332007f0000000000000300035f03074b826e3c413c005e,
  0x28481a00442a00000000000000000000000000000000000000000000000000000000000000000000000000000000000000000000000000000000000000000000000000000007600000076000000760000005f00000000005f000000000000000000000000000840809c48401800208c100402000000000000000e00021000024300858771800008340370004d470100000085000500450a0a0032007f000000000000001001eb04052d1e46a02d23005f,
  0x6000000000000000000000000000000000000000000000000000000000000000000000000000000000000000000000000000000000000000000000000100000000000000000f0f0000007f0000000000000000000000000000000000000060,
  0x6100000000000000000000000000000000000000000000000000000000000000000000000000000000000000000000000000000000000000000000000100000000000000000f0f0000007f0000000000000000000000000000000000000061,
  0x620000000000000000000000000000000000000000000000000000000000000000000000000000000000000000000000000000000000000000000000010000007d004b00340f0f0000007f0000000000000000000000000000000000000062,
  0x630000000000000000000000000000000000000000000000000000000000000000000000000000000000000000000000000000000000000000000000010000007d004b00340f0f0000007f0000000000000000000000000000000000000063],
  [0x6400000000000000000000000000000000000000000000000000000000000000000000000000000000000000000000000000000000000000000000000203b50000000000000f0f000000ff0000000000000000000000000000000000000064,
  0x6500000000000000000000000000000000000000000000000000000000000000000000000000000000000000000000000000000000000000000000000303b60000000000000f0f000000ff0000000000000000000000000000000000000065,
  0x660000000000000000000000000000000000000000000000000000000000000000000000000000000000000000000000000000000000000000000000010000008b002200220f0f0500007f0000000000000000000000000000000000000066,
  0x6700000000000000000000000000000000000000000000000000000000000000000000000000000000000000000000000000000000000000000000000203b8008b002200220f0f0500007f0000000000000000000000000000000000000067,
  0x6800000000000000000000000000000000000000000000000000000000000000000000000000000000000000000000000000000000000000000000000100000004001f00450f0f0000007f0000000000000000000000000000000000000068,
  0x6900000000000000000000000000000000000000000000000000000000000000000000000000000000000000000000000000000000000000000000000203b90004001f00450f0f0000007f0000000000000000000000000000000000000069,
  0x6a00000000000000000000000000000000000000000000000000000000000000000000000000000000000000000000000000000000000000000000000100000054007800070f0f00000000000000000000000000000000000000000000006a,
  0x6b00000000000000000000000000000000000000000000000000000000000000000000000000000000000000000000000000000000000000000000000100000027005900330f0f00000000000000000000000000000000000000000000006b,
  0xb03025247400b0000000000000000000000000000000000000000000000000000000000000000000000000000000000000000000000000000000000000000000000000007d00000000007d0000007d0000006c00000000006c000000000000000000000000000800200120000020028c12877f00000000000000060002900008010a978be18b3b028f0078004d49010000000d000c001401010032007f000001170000000201eb00004b3c1e4b375a006c,
  0x6d000000000000000000000000000000000000000000000000000000000000000000000000000000000000000000000000000000000000000000000001000000010100001a0f0f0000007f000000000000000000000000000000000000006d,
  0x6e00000000000000000000000000000000000000000000000000000000000000000000000000000000000000000000000000000000000000000000000203ba00010100001a0f0f0000007f000000000000000000000000000000000000006e,
  0xa3b0a1210402ae0000000000000000000000000000000000000000000000000000000000000000000000000000000000000000000000000000000000000000000000000000007800000078000000780000006f00000000006f000000000000000000000000000040801808420000899c30876700000000000000050002101c026100878fe08000047e006400454701000000780045001f05010532007f000000000000001001e105041e1e195f5550006f,
  0xb7b0a1617402ae0000000000000000000000000000000000000000000000000000000000000000000000000000000000000000000000000000000000000000000000000000007900000079000000790000007000000000006f000000000000000000000000000841809809420040899d30877f000000000000000f0002101f0a610a978fe0833f04b000be00aa4701000000780045001f05010532007f0000000000000008027d05042d2d287882690070,
  0x1f0592d24fe0aa0000000000000000000000000000000000000000000000000000000000000000000000000000000000000000000000000000000000000000000000000005700000057000000570057000000710000000000710000000000000000000000000000106c30200002050a8c18cf6600000000000000040002900088010a8fab6a4b3b015a006e018b4901000000830020001e0606048c00fe0000000001000002026900006923320505fa0071,
  0x1010500004002000000000000000000000000000000000000000000000000000000000000000000000000000000000000000000000000000000000000000000000000000000000005f005f0000005f00000072000000000072000000000000000000000000000000002182080000000c5200030000000000000000010010001004008493a40b00015e006400574101000000900066002207070032007f000000000000001001eb0b0b28643c7337410072,
  0x7300000000000000000000000000000000000000000000000000000000000000000000000000000000000000000000000000000000000000000000000203bb0027007100300f0f000000fe0000000000000000000000000000000000000073,
  0x7400000000000000000000000000000000000000000000000000000000000000000000000000000000000000000000000000000000000000000000000100000006006100210f0f0000007f0000000000000000000000000000000000000074,
  0x7500000000000000000000000000000000000000000000000000000000000000000000000000000000000000000000000000000000000000000000000100000006006100260f0f0000007f0000000000000000000000000000000000000075,
  0x760000000000000000000000000000000000000000000000000000000000000000000000000000000000000000000000000000000000000000000000010000001f002900210f0f0000007f0000000000000000000000000000000000000076,
  0x770000000000000000000000000000000000000000000000000000000000000000000000000000000000000000000000000000000000000000000000010000001f002900210f0f0000007f0000000000000000000000000000000000000077,
  0x7800000000000000000000000000000000000000000000000000000000000000000000000000000000000000000000000000000000000000000000000100000094001e00230f0f050000ff0000000000000000000000000000000000000078,
  0x7900000000000000000000000000000000000000000000000000000000000000000000000000000000000000000000000000000000000000000000000100000094001e00230f0f050000ff0000000000000000000000000000000000000079,
  0x150193a04f651000000000000000000000000000000000000000000000000000000000000000000000000000000000000000000000000000000000000000000000000000000000000000000004d004d0000007a00000000007a0000000000000000000000000000100e20330002416e6e104b0200000000000000001a0011c0ba000a86abae4f3b0221008200a1490203bc0065006f002b08080032007f00000000000008000287110d78645a412d28007a,
  0x1010001206a5210000000000000000000000000000000000000000000000000000000000000000000000000000000000000000000000000000000000000000000000000000004800000000004800480000007b00000000007b000000000000000000000000000000000000300000002c3030010000000000000002c000522005000986c3aa03000230009600644301000000500065004403030032007f000000000000000401d70206503769506e46007b,
  0x7c00000000000000000000000000000000000000000000000000000000000000000000000000000000000000000000000000000000000000000000000100000057006c000c0f0f000000fe000000000000000000000000000000000000007c,
  0x15050090074042000000000000000000000000000000000000000000000000000000000000000000000000000000000000000000000000000000000000000000000000000b700b700000000000000b70000007d00000000007d000000000000000000000000000000410001000000088c100b8200000000000000000005180008000b8283a3433b012c006e00ac4201000000480009000908080032003f0000014200000080027d0c0c555f69395341007d,
  0x1301001003480200000000000000000000000000000000000000000000000000000000000000000000000000000000000000000000000000000000000000000000000000000000000af0000000000af0000007e00000000007e000000000000000000000000000000000001008008188c10a88600000000000000000000180018000ac483a1232b01bd008200ad4001000000480031003108080032003f0000014300000200027d090955645d395f41007e,
  0x7f00000000000000000000000000000000000000000000000000000000000000000000000000000000000000000000000000000000000000000000000203bd0099006800340f0f0500007f000000000000000000000000000000000000007f,
  0x800000000000000000000000000000000000000000000000000000000000000000000000000000000000000000000000000000000000000000000000010000007d005300160f0f050000000000000000000000000000000000000000000080,
  0x50005000000050005000000081000000000081000000000000000000000000000000000000000000000000000800000000000000000000000000100000000000000064005a002840010000009b002100210e0c0532007f000000000000004001ff0a0a140f50370a140081,
  0x2f63025800480a800000000000000000000000000000000000000000000000000000000000000000000000000000000000000000000000000000000000000000000000000000051005100000051005100000082000000000081000000000000000000000000000002100d00440820298d11877e0000000000000002000210090290209b8f204300092e028a00bd410203be0099001600160e0c0532007f00000000000000080237020a643c514f7d5f0082,
  0x830000000000000000000000000000000000000000000000000000000000000000000000000000000000000000000000000000000000000000000000010000005d004b000b0f0f0500007f0000000000000000000000000000000000000083,
  0x8400000000000000000000000000000000000000000000000000000000000000000000000000000000000000000000000000000000000000000000000100000096000700070f0f000000ff0000000000000000000000000000000000000084,
  0x101000e84000000000000000000000000000000000000000000000000000000000000000000000000000000000000000000000000000000000000000000000000000019000000190000001900190000008500000000008500000000000000000000000000000024000000000402ac1020020000000000000000000090000000c386a32080040041001e0041450203bf006b005b003205050032001f000000000000040001d70000412d373237370085,
  0x903125000e8420000000000000000000000000000000000000000000000000000000000000000000000000000000000000000000000000000000000000000000000000001a0000001a0000001a001a0000008600000000008500000000000000000000000000040034000000002402ac11207a0000000000000000000090000080e39eab2083040122006400b841010000005d000b000b05050032001f000000000000000202730a0a5f6e413c41820086,
  0x505109000e8424000000000000000000000000000000000000000000000000000000000000000000000000000000000000000000000000000000000000000000000000001b0000001b0000001b001b0000008700000000008500000000000000000000000000000065000000000402ac1033020000000000000000000190040000c386a322c38400f5005000b842010000005f000a000a05050032001f000000000000008002730c0c5f6e823c41410087,
  0x301103000ec422000000000000000000000000000000000000000000000000000000000000000000000000000000000000000000000000000000000000000000000000001c0000001c0000001c001c0000008800000000008500000000000000000000000000000024000000800c92ac10a0060000000000000000100090100000c3c6a720a30400fa005a00b840010000003e0012001205050032001f0000000000000008027309096e5f413c82410088,
  0x1d0112104040d00000000000000000000000000000000000000000000000000000000000000000000000000000000000000000000000000000000000000000000000000000000000000000000000085000000890000000000890000000000000000000000000000000a0020000000428e181b600000000000000000200410c0700001860ba04b00016d0050004f490100000094005800240a0a003200ff000000000000010001cd00004b5528463c410089,
  0x8a00000000000000000000000000000000000000000000000000000000000000000000000000000000000000000000000000000000000000000000000100000085004b00210f0f0000001f000000000000000000000000000000000000008a,
  0x8b00000000000000000000000000000000000000000000000000000000000000000000000000000000000000000000000000000000000000000000000100000085004b00210f0f0000001f000000000000000000000000000000000000008b,
  0x8c00000000000000000000000000000000000000000000000000000000000000000000000000000000000000000000000000000000000000000000000100000085000400210f0f0000001f000000000000000000000000000000000000008c,
  0x8d00000000000000000000000000000000000000000000000000000000000000000000000000000000000000000000000000000000000000000000000100000085000400210f0f0000001f000000000000000000000000000000000000008d,
  0x8e00000000000000000000000000000000000000000000000000000000000000000000000000000000000000000000000000000000000000000000000203c0007f002e00450f0f0500001f000000000000000000000000000000000000008e,
  0x1f4d124a47400b00000000000000000000000000000000000000000000000000000000000000000000000000000000000000000000000000000000000000000000000000034000000000000003400340000008f00000000008f0000000000000000000000000008616086210800048b4d12cf7e00000000000000040002900008010897ab710b3f11f800d200bd440100000052002f001101010532001f000000ea00ea0002023700006e411e416ea0008f,
  0x9000000000000000000000000000000000000000000000000000000000000000000000000000000000000000000000000000000000000000000000000203c10051002e002e0f0f050000ff0000000000000000000000000000000000000090,
  0x9100000000000000000000000000000000000000000000000000000000000000000000000000000000000000000000000000000000000000000000000203c20009002e002e0f0f050000ff0000000000000000000000000000000000000091,
  0x9200000000000000000000000000000000000000000000000000000000000000000000000000000000000000000000000000000000000000000000000203c30031002e002e0f0f050000ff0000000000000000000000000000000000000092,
  0x930000000000000000000000000000000000000000000000000000000000000000000000000000000000000000000000000000000000000000000000010000003f003d003d0f0f0500007f0000000000000000000000000000000000000093,
  0x940000000000000000000000000000000000000000000000000000000000000000000000000000000000000000000000000000000000000000000000010000003f003d003d0f0f0500007f0000000000000000000000000000000000000094,
  0x9500000000000000000000000000000000000000000000000000000000000000000000000000000000000000000000000000000000000000000000000100000088002700270f0f0500007f0000000000000000000000000000000000000095,
  0x9600000000000000000000000000000000000000000000000000000000000000000000000000000000000000000000000000000000000000000000000303c4007f002e002e0f0f050000ff0000000000000000000000000000000000000096,
  0x970000000000000000000000000000000000000000000000000000000000000000000000000000000000000000000000000000000000000000000000010000001c001c001c0f0f030000ff0000000000000000000000000000000000000097,
  0x9800000000000000000000000000000000000000000000000000000000000000000000000000000000000000000000000000000000000000000000000100000000000000000f0f0000001f0000000000000000000000000000000000000098,
  0x9900000000000000000000000000000000000000000000000000000000000000000000000000000000000000000000000000000000000000000000000100000000000000000f0f0000001f0000000000000000000000000000000000000099,
  0x9a00000000000000000000000000000000000000000000000000000000000000000000000000000000000000000000000000000000000000000000000100000000000000000f0f0000001f000000000000000000000000000000000000009a,
  0x204001000405000000000000000000000000000000000000000000000000000000000000000000000000000000000000000000000000000000000000000000000000000000000000000000000000040000009b00000000009b000000000000000000000000000000600000008008100c308004000000020000000000001000000000c483208000004f0032003e4201000000120042004205050332001f000000000000004001cd0909323c412b3427009b,
  0x204001000405200000000000000000000000000000000000000000000000000000000000000000000000000000000000000000000000000000000000000000000000000000000000000000000000050000009c00000000009b000000000000000000000000000000600000008008100c308004000000020000000000001000000009c48320800000be005a008e4201000000120042004205050332001f0000000000000140026909094150503a403a009c,
  0x9d00000000000000000000000000000000000000000000000000000000000000000000000000000000000000000000000000000000000000000000000203c60000000000000f0f0000001f000000000000000000000000000000000000009d,
  0x9e00000000000000000000000000000000000000000000000000000000000000000000000000000000000000000000000000000000000000000000000100000000000000000f0f0000001f000000000000000000000000000000000000009e,
  0x9f00000000000000000000000000000000000000000000000000000000000000000000000000000000000000000000000000000000000000000000000100000000000000000f0f0000001f000000000000000000000000000000000000009f,
  0xa000000000000000000000000000000000000000000000000000000000000000000000000000000000000000000000000000000000000000000000000100000000000000000f0f0000001f00000000000000000000000000000000000000a0,
  0xa100000000000000000000000000000000000000000000000000000000000000000000000000000000000000000000000000000000000000000000000100000000000000000f0f0000007f00000000000000000000000000000000000000a1,
  0xa200000000000000000000000000000000000000000000000000000000000000000000000000000000000000000000000000000000000000000000000100000000000000000f0f0000007f00000000000000000000000000000000000000a2,
  0xa30000000000000000000000000000000000000000000000000000000000000000000000000000000000000000000000000000000000000000000000010000006e0033000f0f0f0000007f00000000000000000000000000000000000000a3,
  0xa40000000000000000000000000000000000000000000000000000000000000000000000000000000000000000000000000000000000000000000000010000006e0033000f0f0f0000007f00000000000000000000000000000000000000a4,
  0xa500000000000000000000000000000000000000000000000000000000000000000000000000000000000000000000000000000000000000000000000100000000000000000f0f0000007f00000000000000000000000000000000000000a5,
  0xa600000000000000000000000000000000000000000000000000000000000000000000000000000000000000000000000000000000000000000000000100000000000000000f0f0000007f00000000000000000000000000000000000000a6,
  0xa700000000000000000000000000000000000000000000000000000000000000000000000000000000000000000000000000000000000000000000000100000000000000000f0f0000007f00000000000000000000000000000000000000a7,
  0xa800000000000000000000000000000000000000000000000000000000000000000000000000000000000000000000000000000000000000000000000100000000000000000f0f0000007f00000000000000000000000000000000000000a8,
  0x21011401c042500000000000000000000000000000000000000000000000000000000000000000000000000000000000000000000000000000000000000000000000000002400240000002400240024000000a900000000002900000000000000000000000000000a0000341400003b0c54100000000000000000008000760007000186d3a1034002ee00b4010c4601000000970027002704040032007f00000000000000c0035f0203504682505a5500a9,
  0xaa0000000000000000000000000000000000000000000000000000000000000000000000000000000000000000000000000000000000000000000000010000000b0023000a0f0f0500007f00000000000000000000000000000000000000aa,
  0xab0000000000000000000000000000000000000000000000000000000000000000000000000000000000000000000000000000000000000000000000010000000b0023000a0f0f0500007f00000000000000000000000000000000000000ab,
  0x10484009002c0400000000000000000000000000000000000000000000000000000000000000000000000000000000000000000000000000000000000000000000000000000000000037003700370037000000ac0000000000ac00000000000000000000000000000440201000000008cc30031200000000000000000405100008000382a32640230014001e002942010000001f000900090f0f0032007f000000000000004001f50c0c23233c0f281400ac,
  0x1280125040e1400000000000000000000000000000000000000000000000000000000000000000000000000000000000000000000000000000000000000000000000000000000c700000000000000c7000000ad0000000000ad0000000000000000000000000000042420200000044ace12c80600000000000000000280108008008286ab2ecc03001e001e002c490100000084006200380f0f048c00bf000000510000040001e11111372d0f1c193200ad,
  0xae0000000000000000000000000000000000000000000000000000000000000000000000000000000000000000000000000000000000000000000000010000008400ac00380f0f040000bf00000000000000000000000000000000000000ae,
  0x1280906040e0c2000000000000000000000000000000000000000000000000000000000000000000000000000000000000000000000000000000000000000000000000000000000007f007f007f007f000000af0000000000af0000000000000000000000000000142420300000044e6e18c80600000000000000001080100008000386a32e4803000f001e0031480100000069002000370f0f0432001f000000000000040001cd111141281441142300af,
  0x1381906048e3d20000000000000000000000000000000000000000000000000000000000000000000000000000000000000000000000000000000000000000000000000000000000080008000800080000000b00000000000af0000000000000000000000000000142420300000045e6e18c80600000000000000011080900088001b86e32e4f430020003c008e4801000000690020003706040432001f00000000000008000269021169502855283700b0,
  0xb10000000000000000000000000000000000000000000000000000000000000000000000000000000000000000000000000000000000000000000000010000009c0030001c0f0f0000007f00000000000000000000000000000000000000b1,
  0xb20000000000000000000000000000000000000000000000000000000000000000000000000000000000000000000000000000000000000000000000010000009c0030001c0f0f0000007f00000000000000000000000000000000000000b2,
  0xb300000000000000000000000000000000000000000000000000000000000000000000000000000000000000000000000000000000000000000000000100000000000000000f0f0000007f00000000000000000000000000000000000000b3,
  0xb400000000000000000000000000000000000000000000000000000000000000000000000000000000000000000000000000000000000000000000000100000000000000000f0f0000007f00000000000000000000000000000000000000b4,
  0xb500000000000000000000000000000000000000000000000000000000000000000000000000000000000000000000000000000000000000000000000203c70000000000000f0f0000007f00000000000000000000000000000000000000b5,
  0xb600000000000000000000000000000000000000000000000000000000000000000000000000000000000000000000000000000000000000000000000100000083002200220f0f0300007f00000000000000000000000000000000000000b6,
  0xb70000000000000000000000000000000000000000000000000000000000000000000000000000000000000000000000000000000000000000000000010000009d0025002f0f0f0400007f00000000000000000000000000000000000000b7,
  0xb80000000000000000000000000000000000000000000000000000000000000000000000000000000000000000000000000000000000000000000000010000009d0025002f0f0f0400007f00000000000000000000000000000000000000b8,
  0x20080207602a00000000000000000000000000000000000000000000000000000000000000000000000000000000000000000000000000000000000000000000000000000007c0000007c0000007c000000b90000000000b9000000000000000000000000000800021808000240280c10048200000000000000040002100008438a8583f0803b017c0078009045010000009b004500050a0a0032007f000000000000002002870505411e1e73644600b9,
  0xba000000000000000000000000000000000000000000000000000000000000000000000000000000000000000000000000000000000000000000000001000000020006000b0f0f0300007f00000000000000000000000000000000000000ba,
  0xbb00000000000000000000000000000000000000000000000000000000000000000000000000000000000000000000000000000000000000000000000100000000000000000f0f0000007f00000000000000000000000000000000000000bb,
  0xbc00000000000000000000000000000000000000000000000000000000000000000000000000000000000000000000000000000000000000000000000100000000000000000f0f0000007f00000000000000000000000000000000000000bc,
  0xbd00000000000000000000000000000000000000000000000000000000000000000000000000000000000000000000000000000000000000000000000100000000000000000f0f0000007f00000000000000000000000000000000000000bd,
  0x40010540740520000000000000000000000000000000000000000000000000000000000000000000000000000000000000000000000000000000000000000000000000004e0000004e0000004e004e000000be0000000000be0000000000000000000000000000002222100800002aec10538200000000000000020010d8020f108da683a1c83b00730050004846010000005c0035003205050432007f000000000000004001eb000037285537463700be,
  0xbf00000000000000000000000000000000000000000000000000000000000000000000000000000000000000000000000000000000000000000000000100000000000000000f0f0000007f00000000000000000000000000000000000000bf,
  0xc000000000000000000000000000000000000000000000000000000000000000000000000000000000000000000000000000000000000000000000000100000000000000000f0f0000007f00000000000000000000000000000000000000c0,
  0x100010008042400000000000000000000000000000000000000000000000000000000000000000000000000000000000000000000000000000000000000000000000000000000690000006900000069000000c10000000000c10000000000000000000000000000000000002000000a0c34180100000000000000008000100001000084d3a10800017c0078004e400100000077000e000303030032007f000001090000004001eb02062d4b5f2d414100c1,
  0xc20000000000000000000000000000000000000000000000000000000000000000000000000000000000000000000000000000000000000000000000010000006d000b00060f0f0000007f00000000000000000000000000000000000000c2,
  0xc30000000000000000000000000000000000000000000000000000000000000000000000000000000000000000000000000000000000000000000000010000006d000b00060f0f0000007f00000000000000000000000000000000000000c3,
  0x1101901040e8420000000000000000000000000000000000000000000000000000000000000000000000000000000000000000000000000000000000000000000000000001d0000001d0000001d001d000000c40000000000850000000000000000000000000002102c202000020546ae1028020000000000000000000091401000c386a32683040109005a00b846010000009c001c001c05050032001f000000000000020002730d0d5f826e3c414100c4,
  0x3101301000ec420000000000000000000000000000000000000000000000000000000000000000000000000000000000000000000000000000000000000000000000000001e0000001e0000001e001e000000c500000000008500000000000000000000000000008026000004000423ac1028020000000000000000002090802600c386a3a18304010e006400b8440100000027001c001c05050023001f000000000000080002731010823c416e415f00c5,
  0x30003200006250000000000000000000000000000000000000000000000000000000000000000000000000000000000000000000000000000000000000000000000000000000000008c008c0000008c000000c60000000000c60000000000000000000000000000000200040402003a0c10080000000000000000008020900006000086cba1404000150032005144010000009e0069000f04040323007f000000000000004001eb02102a555b2a553c00c6,
  0xc700000000000000000000000000000000000000000000000000000000000000000000000000000000000000000000000000000000000000000000000203c800900014000c0f0f0000007f00000000000000000000000000000000000000c7],
  [0x34009280006250000000000000000000000000000000000000000000000000000000000000000000000000000000000000000000000000000000000000000000000000000c500c500000000000000c5000000c80000000000c80000000000000000000000000000100a00108402056a0c100b000000000000000000000031c0020090c68ba14000000a0046005747010000001a001a001a0b0b0423007f000000000000040001eb07075555553c3c3c00c8,
  0x8e000000c90000000000c900000000000000000000000000000000000000000000000000000000000000000000000000000000000000000000003200320076441c03c9001a001a001a0f0f003200ff000000000000010402b90d0d30483030483000c9,
  0xca0000000000000000000000000000000000000000000000000000000000000000000000000000000000000000000000000000000000000000000000010000008c001700170f0f0000007f00000000000000000000000000000000000000ca,
  0xcb00000000000000000000000000000000000000000000000000000000000000000000000000000000000000000000000000000000000000000000000100000000000000000f0f0000007f00000000000000000000000000000000000000cb,
  0xcc00000000000000000000000000000000000000000000000000000000000000000000000000000000000000000000000000000000000000000000000100000000000000000f0f0000007f00000000000000000000000000000000000000cc,
  0xcd00000000000000000000000000000000000000000000000000000000000000000000000000000000000000000000000000000000000000000000000100000000000000000f0f0000007f00000000000000000000000000000000000000cd,
  0xce0000000000000000000000000000000000000000000000000000000000000000000000000000000000000000000000000000000000000000000000010000009b003200200f0f0000007f00000000000000000000000000000000000000ce,
  0x20220c1310407a100000000000000000000000000000000000000000000000000000000000000000000000000000000000000000000000000000000000000000000000000b900b900000000000000b9000000cf0000000000cf00000000000000000000000000008000190816000020ac5014010000000000000000400256000f030887c3e180800288006e00564601000000110008003403030332007f000000000000001001eb0204412355694b4100cf,
  0xa12b481a00442be000000000000000000000000000000000000000000000000000000000000000000000000000000000000000000000000000000000000000000000000000000770000007700000077000000d000000000005f000000000000000000000000000a40809c48441840218c100402000000800000000e0002101c02430085877183000fa0039800b3470203e4007d000500450a0a0032007f000000e9000000200287040841371ec8554b00d0,
  0xd100000000000000000000000000000000000000000000000000000000000000000000000000000000000000000000000000000000000000000000000100000000000000000f0f000000bf00000000000000000000000000000000000000d1,
  0xd200000000000000000000000000000000000000000000000000000000000000000000000000000000000000000000000000000000000000000000000100000000000000000f0f000000bf00000000000000000000000000000000000000d2,
  0xd300000000000000000000000000000000000000000000000000000000000000000000000000000000000000000000000000000000000000000000000203e50016002100260f0f0000007f00000000000000000000000000000000000000d3,
  0x81014009206a5210000000000000000000000000000000000000000000000000000000000000000000000000000000000000000000000000000000000000000000000000000004a00000000004a004a000000d400000000007b000000000000000000000000000000000440300040802c3030010000008000000002c00056200d020987c3aa0300049c00b400af400203e600870065004403030032007f00000000000000080273080650374164824600d4,
  0xd50000000000000000000000000000000000000000000000000000000000000000000000000000000000000000000000000000000000000000000000010000007e005200050f0f0300007f00000000000000000000000000000000000000d5,
  0x179000600701e10000000000000000000000000000000000000000000000000000000000000000000000000000000000000000000000000000000000000000000000000000004b00000000004b004b000000d60000000000d60000000000000000000000000000c0200801002140001cb004830000000000000003400294020c450e8683e08380021c009600af410203e70099003e004403030532007f0000000000000008025501065f28554b7d5000d6,
  0x28003215346052100000000000000000000000000000000000000000000000000000000000000000000000000000000000000000000000000000000000000000000000000ca00ca00000000000000ca000000d70000000100d7000000000000000000000000000080020000160200228c1010f10000000000000000402098230a0089be8ba580130118005a0056440203e8007c0033002705050323007f000000d90000004001eb0e104b2373375f3700d7,
  0x88000607d85a0000000000000000000000000000000000000000000000000000000000000000000000000000000000000000000000000000000000000000000000000000000700000007000000070000000d80000000000d8000000000000000000000000000004200200082104a10c1064030000000000000000000290020a018986a3e0803b0058003c0042450100000076005f003505050032007f000000000000000401e1000032322832503c00d8,
  0x1a9000607d85a0000000000000000000000000000000000000000000000000000000000000000000000000000000000000000000000000000000000000000000000000000000710000007100000071000000d90000000000d8000000000000000000000000000084200a01082104a90c1064830000000000000004000290030a018986a7e0833b04ea00b400af45010000007f005f003e05050032007f0000000000000008027d00004b4b374b825a00d9,
  0xda00000000000000000000000000000000000000000000000000000000000000000000000000000000000000000000000000000000000000000000000100000000000000000f0f0000007f00000000000000000000000000000000000000da,
  0xdb00000000000000000000000000000000000000000000000000000000000000000000000000000000000000000000000000000000000000000000000100000000000000000f0f0000007f00000000000000000000000000000000000000db,
  0x8080a0200c02a000000000000000000000000000000000000000000000000000000000000000000000000000000000000000000000000000000000000000000000000000d4000000000000000000d4000000dc0000000000dc000000000000000000000000000000001008000000800c120462000000000000000000021001002b008b8f66800000410028003245010000002f0051000c05050532007f000000000000000401e1040e1e1e3228323200dc,
  0x9290a0200c02a800000000000000000000000000000000000000000000000000000000000000000000000000000000000000000000000000000000000000000000000000d5000000000000000000d5000000dd0000000000dc000000000000000000000000000040001808000000800c120462000000000000000400021009002b008b8f668300022e006e009e45010000002f0051000c05050532007f0000000000000005027d040e3c3c3250646400dd,
  0xde00000000000000000000000000000000000000000000000000000000000000000000000000000000000000000000000000000000000000000000000203e90090001e00370f0f040000bf00000000000000000000000000000000000000de,
  0x190002c00048400000000000000000000000000000000000000000000000000000000000000000000000000000000000000000000000000000000000000000000000000000000000092000000000092000000df0000000000df000000000000000000000000000000100200080000000c11a87c00000000000000000000100004f423968ba141000078003c003c47010000008d006100370c020032007f000000000000010001eb0a0a23414123412300df,
  0x1b0147c00048400000000000000000000000000000000000000000000000000000000000000000000000000000000000000000000000000000000000000000000000000000000000093000000000093000000e00000000000df000000000000000000000000000400104242080000000c51a87c00000000000000000000100006f423968ba14300011d005a00a840010000008d006100150c020032007f000000000000010402870a0a4b692d4b694b00e0,
  0xe10000000000000000000000000000000000000000000000000000000000000000000000000000000000000000000000000000000000000000000000010000000f003700480f0f0400007f00000000000000000000000000000000000000e1,
  0x903024a00445800000000000000000000000000000000000000000000000000000000000000000000000000000000000000000000000000000000000000000000000000000000000a50000000000a5000000e20000000000e2000000000000000000000000000c02100600080000000c13147a00000000000000008002500004d5239a8b600300089800d200aa460100000029000b002102020532007f00000000000008000287020a8c504646285500e2,
  0xe300000000000000000000000000000000000000000000000000000000000000000000000000000000000000000000000000000000000000000000000100000085000500330f0f0500007f00000000000000000000000000000000000000e3,
  0xe400000000000000000000000000000000000000000000000000000000000000000000000000000000000000000000000000000000000000000000000100000000000000000f0f0000007f00000000000000000000000000000000000000e4,
  0xe500000000000000000000000000000000000000000000000000000000000000000000000000000000000000000000000000000000000000000000000203ea0000000000000f0f0000007f00000000000000000000000000000000000000e5,
  0xe600000000000000000000000000000000000000000000000000000000000000000000000000000000000000000000000000000000000000000000000100000006006100210f0f0000007f00000000000000000000000000000000000000e6,
  0xe700000000000000000000000000000000000000000000000000000000000000000000000000000000000000000000000000000000000000000000000100000000000000000f0f0000007f00000000000000000000000000000000000000e7,
  0xe800000000000000000000000000000000000000000000000000000000000000000000000000000000000000000000000000000000000000000000000100000000000000000f0f0000007f00000000000000000000000000000000000000e8,
  0x1d0112904040d00000000000000000000000000000000000000000000000000000000000000000000000000000000000000000000000000000000000000000000000000000000000000000000000086000000e90000000000e90000000000000000000000000000000a0020000000428e181b600000000000000000200410c0700001860ba04b000145003c00b4400100000094005800240a0a003200ff0000000000000200026900005f693c5a505500e9,
  0x141511904060480000000000000000000000000000000000000000000000000000000000000000000000000000000000000000000000000000000000000000000000000003100310031000000310031000000ea0000000000ea0000000000000000000000000000806000220002010a9e100f020000000000000000000291400010108683a64a0002c8008c00a345010000009d0077001605050532007f000000000000000402eb00004155553e5f4900ea,
  0xeb00000000000000000000000000000000000000000000000000000000000000000000000000000000000000000000000000000000000000000000000100000000000000000f0f0000007f00000000000000000000000000000000000000eb,
  0xec000000000000000000000000000000000000000000000000000000000000000000000000000000000000000000000000000000000000000000000001000000480050003e0f0f0000000000000000000000000000000000000000000000ec,
  0xed00000000000000000000000000000000000000000000000000000000000000000000000000000000000000000000000000000000000000000000000100000050006500160f0f0000000000000000000000000000000000000000000000ed,
  0xee0000000000000000000000000000000000000000000000000000000000000000000000000000000000000000000000000000000000000000000000010000005d006c000c0f0f000000fe00000000000000000000000000000000000000ee,
  0x14040080074042000000000000000000000000000000000000000000000000000000000000000000000000000000000000000000000000000000000000000000000000000b600b600000000000000b6000000ef0000000000ef000000000000000000000000000000410000000000080c100b8200000000000000000005100008000b8283a3403b00eb003c0048420100000048000900090f0f0032003f000001420000004001e10c0c37415f253f2d00ef,
  0x1200001003480200000000000000000000000000000000000000000000000000000000000000000000000000000000000000000000000000000000000000000000000000000000000ae0000000000ae000000f00000000000f0000000000000000000000000000000000000008008188c10a80600000000000000000000100018000ac483a1202b00d600460049400100000048003100310f0f0032003f000001430000004001e10909374653254b2d00f0,
  0xf10000000000000000000000000000000000000000000000000000000000000000000000000000000000000000000000000000000000000000000000010000009d0071002f0f0f050000fe00000000000000000000000000000000000000f1,
  0x1f0592d24fe4aa0000000000000000000000000000000000000000000000000000000000000000000000000000000000000000000000000000000000000000000000000005800000058000000580058000000f20000000000710000000000000000000000000000106c30210002050a8c18cf6600000000000000040002900188010a8fab6a4b3b01d40096027b4901000000830020001e0606048c00fe000000e70000000303370000874b370a0aff00f2,
  0xf300000000000000000000000000000000000000000000000000000000000000000000000000000000000000000000000000000000000000000000000100000027002e002e0f0f050000ff00000000000000000000000000000000000000f3,
  0xf400000000000000000000000000000000000000000000000000000000000000000000000000000000000000000000000000000000000000000000000100000027002e002e0f0f050000ff00000000000000000000000000000000000000f4,
  0xf500000000000000000000000000000000000000000000000000000000000000000000000000000000000000000000000000000000000000000000000100000027002e002e0f0f050000ff00000000000000000000000000000000000000f5,
  0xf600000000000000000000000000000000000000000000000000000000000000000000000000000000000000000000000000000000000000000000000100000008003e003e0f0f0500007f00000000000000000000000000000000000000f6,
  0xf70000000000000000000000000000000000000000000000000000000000000000000000000000000000000000000000000000000000000000000000010000003d003d003d0f0f0500007f00000000000000000000000000000000000000f7,
  0xf800000000000000000000000000000000000000000000000000000000000000000000000000000000000000000000000000000000000000000000000203eb007f002d002d0f0f0500007f00000000000000000000000000000000000000f8,
  0xf900000000000000000000000000000000000000000000000000000000000000000000000000000000000000000000000000000000000000000000000100000088002e002e0f0f050000ff00000000000000000000000000000000000000f9,
  0xfa00000000000000000000000000000000000000000000000000000000000000000000000000000000000000000000000000000000000000000000000100000090002e002e0f0f050000ff00000000000000000000000000000000000000fa,
  0xfb0000000000000000000000000000000000000000000000000000000000000000000000000000000000000000000000000000000000000000000000010000001e001e001e0f0f030000ff00000000000000000000000000000000000000fb,
  0xfc00000000000000000000000000000000000000000000000000000000000000000000000000000000000000000000000000000000000000000000000100000054004100410f0f0300001f00000000000000000000000000000000000000fc,
  0xfd00000000000000000000000000000000000000000000000000000000000000000000000000000000000000000000000000000000000000000000000100000054004100410f0f0300001f00000000000000000000000000000000000000fd,
  0xfe00000000000000000000000000000000000000000000000000000000000000000000000000000000000000000000000000000000000000000000000203ec0054004100410f0f0300001f00000000000000000000000000000000000000fe,
  0xff00000000000000000000000000000000000000000000000000000000000000000000000000000000000000000000000000000000000000000000000100000003004200420f0f0300001f00000000000000000000000000000000000000ff,
  0x10000000000000000000000000000000000000000000000000000000000000000000000000000000000000000000000000000000000000000000000000100000003004200420f0f0300001f0000000000000000000000000000000000000100,
  0x10100000000000000000000000000000000000000000000000000000000000000000000000000000000000000000000000000000000000000000000000203ed0003004200420f0f0300001f0000000000000000000000000000000000000101,
  0x10200000000000000000000000000000000000000000000000000000000000000000000000000000000000000000000000000000000000000000000000100000006004300430f0f0300001f0000000000000000000000000000000000000102,
  0x10300000000000000000000000000000000000000000000000000000000000000000000000000000000000000000000000000000000000000000000000100000006004300430f0f0300001f0000000000000000000000000000000000000103,
  0x10400000000000000000000000000000000000000000000000000000000000000000000000000000000000000000000000000000000000000000000000203ee0006004300430f0f0300001f0000000000000000000000000000000000000104,
  0x10500000000000000000000000000000000000000000000000000000000000000000000000000000000000000000000000000000000000000000000000100000000000000000f0f0000007f0000000000000000000000000000000000000105,
  0x10600000000000000000000000000000000000000000000000000000000000000000000000000000000000000000000000000000000000000000000000100000000000000000f0f0000007f0000000000000000000000000000000000000106,
  0x10700000000000000000000000000000000000000000000000000000000000000000000000000000000000000000000000000000000000000000000000203ef005f005200350f0f0000007f0000000000000000000000000000000000000107,
  0x10800000000000000000000000000000000000000000000000000000000000000000000000000000000000000000000000000000000000000000000000203f0005f005200350f0f0000007f0000000000000000000000000000000000000108,
  0x1200000012001200000109000000000109000000000000000000000000000000000000000000000000000000000000000000000004000000000000000000000024001e00384001000000320013001303030032007f000000d50097000101f506061e1414232d2d0109,
  0x130000001300130000010a000000000109000000000000000000000000000000000000000040000000000000000000000000000004000000000000000000000064003c004848010000003d003d003d03030032007f000000000000002002c3060619190f372332010a,
  0x1101110080425000000000000000000000000000000000000000000000000000000000000000000000000000000000000000000000000000000000000000000000000000000000000140000001400140000010b000000000109000000000000000000000000000000000002200040020c1008000000000000000000800454000100008493a80b00011c006400c642010000004f0044004403030032007f00000127000003000391020632644132463c010b,
  0x150000001500150000010c0000000001090000000000000000000000000000000000000000400000000000000000000000000000040000000000000000000000730046004846010000003d003d003d03030032007f000000000000002002c3060619190f372332010c,
  0x1101150000425000000000000000000000000000000000000000000000000000000000000000000000000000000000000000000000000000000000000000000000000000000000000160000001600160000010d000000000109000000000000000000000000000008000002200040020c5008000000000000000000000454000100008493a20b00013c007800c143010000000e0013001303030032007f0000012700000c00039103065a324146323c010d,
  0x10e00000000000000000000000000000000000000000000000000000000000000000000000000000000000000000000000000000000000000000000000100000014002c00210f0f0300007f000000000000000000000000000000000000010e,
  0x10f00000000000000000000000000000000000000000000000000000000000000000000000000000000000000000000000000000000000000000000000100000014002c00210f0f0300007f000000000000000000000000000000000000010f,
  0x11000000000000000000000000000000000000000000000000000000000000000000000000000000000000000000000000000000000000000000000000100000014002c00210f0f0300007f0000000000000000000000000000000000000110,
  0x1110000000000000000000000000000000000000000000000000000000000000000000000000000000000000000000000000000000000000000000000010000007c003000220f0f0300007f0000000000000000000000000000000000000111,
  0x1120000000000000000000000000000000000000000000000000000000000000000000000000000000000000000000000000000000000000000000000010000007c003000220f0f0300007f0000000000000000000000000000000000000112,
  0x1130000000000000000000000000000000000000000000000000000000000000000000000000000000000000000000000000000000000000000000000010000007c003000220f0f0300007f0000000000000000000000000000000000000113,
  0x11400000000000000000000000000000000000000000000000000000000000000000000000000000000000000000000000000000000000000000000000100000000000000000f0f0000007f0000000000000000000000000000000000000114,
  0x11500000000000000000000000000000000000000000000000000000000000000000000000000000000000000000000000000000000000000000000000100000000000000000f0f0000007f0000000000000000000000000000000000000115,
  0x1160000000000000000000000000000000000000000000000000000000000000000000000000000000000000000000000000000000000000000000000010000002c005d00330f0f0000007f0000000000000000000000000000000000000116,
  0x1170000000000000000000000000000000000000000000000000000000000000000000000000000000000000000000000000000000000000000000000010000002c000200330f0f0000007f0000000000000000000000000000000000000117,
  0x1c0092804761400000000000000000000000000000000000000000000000000000000000000000000000000000000000000000000000000000000000000000000000000006500000000006500000065000001180000000001180000000000000000000000000000100c2020000205664e1009020000000000000000028011c0080013c6abae443b00420028002848010000008c0024001c0b080523007f000000000000010001e1110d232d2819191c0118,
  0x1c0092804761400000000000000000000000000000000000000000000000000000000000000000000000000000000000000000000000000000000000000000000000000006600000000006600000066000001190000000001180000000000000000000000000000100c2020000205664e1009020000000000000000028011c0080013c6abae443b00ca0050006148010000008c0024001c0b080523007f0000000000000200027d110d3741322323260119,
  0x1d0193a047614000000000000000000000000000000000000000000000000000000000000000000000000000000000000000000000000000000000000000000000000000067000000000067000000670000011a0000000001180000000000000000000000000000100c2023000205664e10090200000000000000001a8011c0380013c6abae473b01e400a00103480203f1008c0024001c0b080523007f0000000000000300034b110d737d50414144011a,
  0x11b00000000000000000000000000000000000000000000000000000000000000000000000000000000000000000000000000000000000000000000000100000000000000000f0f0000007f000000000000000000000000000000000000011b,
  0x11c00000000000000000000000000000000000000000000000000000000000000000000000000000000000000000000000000000000000000000000000100000000000000000f0f0000007f000000000000000000000000000000000000011c,
  0x11d00000000000000000000000000000000000000000000000000000000000000000000000000000000000000000000000000000000000000000000000100000000000000000f0f0000007f000000000000000000000000000000000000011d,
  0x11e00000000000000000000000000000000000000000000000000000000000000000000000000000000000000000000000000000000000000000000000100000000000000000f0f0000007f000000000000000000000000000000000000011e,
  0x11f00000000000000000000000000000000000000000000000000000000000000000000000000000000000000000000000000000000000000000000000100000000000000000f0f0000007f000000000000000000000000000000000000011f,
  0x12000000000000000000000000000000000000000000000000000000000000000000000000000000000000000000000000000000000000000000000000100000000000000000f0f0000007f0000000000000000000000000000000000000120,
  0x12100000000000000000000000000000000000000000000000000000000000000000000000000000000000000000000000000000000000000000000000100000000000000000f0f0000007f0000000000000000000000000000000000000121,
  0x12200000000000000000000000000000000000000000000000000000000000000000000000000000000000000000000000000000000000000000000000100000032000e000e0f0f0100007f0000000000000000000000000000000000000122,
  0x12300000000000000000000000000000000000000000000000000000000000000000000000000000000000000000000000000000000000000000000000100000097000300030f0f0100007f0000000000000000000000000000000000000123,
  0x12400000000000000000000000000000000000000000000000000000000000000000000000000000000000000000000000000000000000000000000000100000019001900190f0f010000ff0000000000000000000000000000000000000124,
  0x1250000000000000000000000000000000000000000000000000000000000000000000000000000000000000000000000000000000000000000000000010000009b002b002b0f0f0300007f0000000000000000000000000000000000000125,
  0x12600000000000000000000000000000000000000000000000000000000000000000000000000000000000000000000000000000000000000000000000100000071002b002b0f0f0300007f0000000000000000000000000000000000000126,
  0x12700000000000000000000000000000000000000000000000000000000000000000000000000000000000000000000000000000000000000000000000100000071002b002b0f0f0300007f0000000000000000000000000000000000000127,
  0x12800000000000000000000000000000000000000000000000000000000000000000000000000000000000000000000000000000000000000000000000100000000000000000f0f0000003f0000000000000000000000000000000000000128,
  0x12900000000000000000000000000000000000000000000000000000000000000000000000000000000000000000000000000000000000000000000000100000000000000000f0f0000003f0000000000000000000000000000000000000129,
  0x12a0000000000000000000000000000000000000000000000000000000000000000000000000000000000000000000000000000000000000000000000010000009d0025002f0f0f040000bf000000000000000000000000000000000000012a,
  0x420480207442a0000000000000000000000000000000000000000000000000000000000000000000000000000000000000000000000000000000000000000000000000000000be00000000000000be0000012b00000000012b000000000000000000000000000810009808800040200c100702000000000000000400031000004302858370403803ca0064004b47010000009f002a00050a0a0032007f000000f20000001001eb05055a2d1e872d1e012b],
  [0x12c00000000000000000000000000000000000000000000000000000000000000000000000000000000000000000000000000000000000000000000000100000000000000000f0f000000bf000000000000000000000000000000000000012c,
  0x12d00000000000000000000000000000000000000000000000000000000000000000000000000000000000000000000000000000000000000000000000100000000000000000f0f000000bf000000000000000000000000000000000000012d,
  0x12e00000000000000000000000000000000000000000000000000000000000000000000000000000000000000000000000000000000000000000000000203f2009e006400330f0f0300007f000000000000000000000000000000000000012e,
  0x12f00000000000000000000000000000000000000000000000000000000000000000000000000000000000000000000000000000000000000000000000203f3007d001600340f0f0400007f000000000000000000000000000000000000012f,
  0x13000000000000000000000000000000000000000000000000000000000000000000000000000000000000000000000000000000000000000000000000100000086004500050f0f0500007f0000000000000000000000000000000000000130,
  0x13100000000000000000000000000000000000000000000000000000000000000000000000000000000000000000000000000000000000000000000000100000086004500050f0f0500007f0000000000000000000000000000000000000131,
  0x13200000000000000000000000000000000000000000000000000000000000000000000000000000000000000000000000000000000000000000000000203f40086004500050f0f0500007f0000000000000000000000000000000000000132,
  0x13300000000000000000000000000000000000000000000000000000000000000000000000000000000000000000000000000000000000000000000000100000000000000000f0f0000007f0000000000000000000000000000000000000133,
  0x13400000000000000000000000000000000000000000000000000000000000000000000000000000000000000000000000000000000000000000000000203f50000000000000f0f0000007f0000000000000000000000000000000000000134,
  0x1350000000000000000000000000000000000000000000000000000000000000000000000000000000000000000000000000000000000000000000000010000003a001f00090f0f0500007f0000000000000000000000000000000000000135,
  0x13600000000000000000000000000000000000000000000000000000000000000000000000000000000000000000000000000000000000000000000000203f6003a001f00090f0f0500007f0000000000000000000000000000000000000136,
  0x13700000000000000000000000000000000000000000000000000000000000000000000000000000000000000000000000000000000000000000000000100000000000000000f0f0000007f0000000000000000000000000000000000000137,
  0x13800000000000000000000000000000000000000000000000000000000000000000000000000000000000000000000000000000000000000000000000100000000000000000f0f0000007f0000000000000000000000000000000000000138,
  0x13900000000000000000000000000000000000000000000000000000000000000000000000000000000000000000000000000000000000000000000000100000000000000000f0f000000000000000000000000000000000000000000000139,
  0x13a00000000000000000000000000000000000000000000000000000000000000000000000000000000000000000000000000000000000000000000000100000000000000000f0f000000fe000000000000000000000000000000000000013a,
  0x950010414400000000000000000000000000000000000000000000000000000000000000000000000000000000000000000000000000000000000000000000000000000005a0000005a0000005a0000013b00000000013b0000000000000000000000000000100021820a40000a0cd000030000000000000000000014000004418693200c800014001e008c4301000000660026001e07060332007f000000f500000200027d030b5064412d3c32013b,
  0x13c00000000000000000000000000000000000000000000000000000000000000000000000000000000000000000000000000000000000000000000000100000000000000000f0f0000007f000000000000000000000000000000000000013c,
  0x13d00000000000000000000000000000000000000000000000000000000000000000000000000000000000000000000000000000000000000000000000100000000000000000f0f0000007f000000000000000000000000000000000000013d,
  0x13e00000000000000000000000000000000000000000000000000000000000000000000000000000000000000000000000000000000000000000000000100000003001800180f0f0500007f000000000000000000000000000000000000013e,
  0x13f00000000000000000000000000000000000000000000000000000000000000000000000000000000000000000000000000000000000000000000000203f70003001800180f0f0500007f000000000000000000000000000000000000013f,
  0x1400000000000000000000000000000000000000000000000000000000000000000000000000000000000000000000000000000000000000000000000010000002e000c00290f0f0200007f0000000000000000000000000000000000000140,
  0x1410000000000000000000000000000000000000000000000000000000000000000000000000000000000000000000000000000000000000000000000010000002e000c00290f0f0200007f0000000000000000000000000000000000000141,
  0x14200000000000000000000000000000000000000000000000000000000000000000000000000000000000000000000000000000000000000000000000100000000000000000f0f0000007f0000000000000000000000000000000000000142,
  0x14300000000000000000000000000000000000000000000000000000000000000000000000000000000000000000000000000000000000000000000000203f80000000000000f0f0000007f0000000000000000000000000000000000000143,
  0x1440000000000000000000000000000000000000000000000000000000000000000000000000000000000000000000000000000000000000000000000010000004b004600490f0f0000007f0000000000000000000000000000000000000144,
  0x14500000000000000000000000000000000000000000000000000000000000000000000000000000000000000000000000000000000000000000000000100000000000000000f0f0000007f0000000000000000000000000000000000000145,
  0x14600000000000000000000000000000000000000000000000000000000000000000000000000000000000000000000000000000000000000000000000100000000000000000f0f0000007f0000000000000000000000000000000000000146,
  0x14700000000000000000000000000000000000000000000000000000000000000000000000000000000000000000000000000000000000000000000000100000000000000000f0f0000007f0000000000000000000000000000000000000147,
  0x1480000000000000000000000000000000000000000000000000000000000000000000000000000000000000000000000000000000000000000000000010000007d004700340f0f0300007f0000000000000000000000000000000000000148,
  0x1490000000000000000000000000000000000000000000000000000000000000000000000000000000000000000000000000000000000000000000000010000001a001a001a0f0f0300007f0000000000000000000000000000000000000149,
  0x14a0000000000000000000000000000000000000000000000000000000000000000000000000000000000000000000000000000000000000000000000010000001a001a001a0f0f0300007f000000000000000000000000000000000000014a,
  0x14b00000000000000000000000000000000000000000000000000000000000000000000000000000000000000000000000000000000000000000000000100000000000000000f0f0000007f000000000000000000000000000000000000014b,
  0x14c00000000000000000000000000000000000000000000000000000000000000000000000000000000000000000000000000000000000000000000000100000000000000000f0f0000007f000000000000000000000000000000000000014c,
  0x14d0000000000000000000000000000000000000000000000000000000000000000000000000000000000000000000000000000000000000000000000010000000d001e001e0f0f0100007f000000000000000000000000000000000000014d,
  0x14e00000000000000000000000000000000000000000000000000000000000000000000000000000000000000000000000000000000000000000000000203f9000d001e001e0f0f0100007f000000000000000000000000000000000000014e,
  0x14f00000000000000000000000000000000000000000000000000000000000000000000000000000000000000000000000000000000000000000000000100000000000000000f0f0000007f000000000000000000000000000000000000014f,
  0x15000000000000000000000000000000000000000000000000000000000000000000000000000000000000000000000000000000000000000000000000100000000000000000f0f0000007f0000000000000000000000000000000000000150,
  0x1510000000000000000000000000000000000000000000000000000000000000000000000000000000000000000000000000000000000000000000000010000001a001a001a0f0f040000ff0000000000000000000000000000000000000151,
  0x1520000000000000000000000000000000000000000000000000000000000000000000000000000000000000000000000000000000000000000000000010000001a001a001a0f0f040000ff0000000000000000000000000000000000000152,
  0x8020a40404008000000000000000000000000000000000000000000000000000000000000000000000000000000000000000000000000000000000000000000000000000000061000000610000006100000153000000000153000000000000000000000000000000100008000820040c1304780000000000000000000210000031209b8b20000000130028003a47010000005d006b000c0c0c0032007f000000000000000101eb040a292e3c2b30320153,
  0x9230a4240401a0000000000000000000000000000000000000000000000000000000000000000000000000000000000000000000000000000000000000000000000000000000620000006200000062000001540000000001530000000000000000000000000004001008280008200c0c1304780000000000000004000210000033609b8b60030000ec005a00a441010000005d006b000c0c0c0032007f00000000000000020287040a474c3c494e6e0154,
  0x1550000000000000000000000000000000000000000000000000000000000000000000000000000000000000000000000000000000000000000000000010000005b004b00340f0f0200007f0000000000000000000000000000000000000155,
  0x1560000000000000000000000000000000000000000000000000000000000000000000000000000000000000000000000000000000000000000000000010000005b004b00340f0f0200007f0000000000000000000000000000000000000156,
  0x1570000000000000000000000000000000000000000000000000000000000000000000000000000000000000000000000000000000000000000000000010000001a001a001a0f0f000000ff0000000000000000000000000000000000000157,
  0x1580000000000000000000000000000000000000000000000000000000000000000000000000000000000000000000000000000000000000000000000010000001a001a001a0f0f000000ff0000000000000000000000000000000000000158,
  0x15900000000000000000000000000000000000000000000000000000000000000000000000000000000000000000000000000000000000000000000000100000072001500150f0f0100001f0000000000000000000000000000000000000159,
  0x15a00000000000000000000000000000000000000000000000000000000000000000000000000000000000000000000000000000000000000000000000100000072001500150f0f0100001f000000000000000000000000000000000000015a,
  0x15b00000000000000000000000000000000000000000000000000000000000000000000000000000000000000000000000000000000000000000000000100000021000400040f0f0100001f000000000000000000000000000000000000015b,
  0x15c00000000000000000000000000000000000000000000000000000000000000000000000000000000000000000000000000000000000000000000000100000021000400040f0f0100001f000000000000000000000000000000000000015c,
  0x15d0000000000000000000000000000000000000000000000000000000000000000000000000000000000000000000000000000000000000000000000010000005b000c00210f0f0100007f000000000000000000000000000000000000015d,
  0x15e0000000000000000000000000000000000000000000000000000000000000000000000000000000000000000000000000000000000000000000000010000003800ac003f0f0f0100007f000000000000000000000000000000000000015e,
  0x15f00000000000000000000000000000000000000000000000000000000000000000000000000000000000000000000000000000000000000000000000403fa0000000000000f0f0000007f000000000000000000000000000000000000015f,
  0x16000000000000000000000000000000000000000000000000000000000000000000000000000000000000000000000000000000000000000000000000100000000000000000f0f0000007f0000000000000000000000000000000000000160,
  0x16100000000000000000000000000000000000000000000000000000000000000000000000000000000000000000000000000000000000000000000000100000000000000000f0f0000007f0000000000000000000000000000000000000161,
  0x16200000000000000000000000000000000000000000000000000000000000000000000000000000000000000000000000000000000000000000000000203fd0000000000000f0f0000007f0000000000000000000000000000000000000162,
  0x380012808062000000000000000000000000000000000000000000000000000000000000000000000000000000000000000000000000000000000000000000000000000009e0000009e00000000009e00000163000000000163000000000000000000000000000000080000040201660c1008620000000000000000000030c00a0016c68ba0000000960050003b440100000077001a001a0b0b0423007f000000f70000040001e107075a1e195a28140163,
  0x3901128287660a0000000000000000000000000000000000000000000000000000000000000000000000000000000000000000000000000000000000000000000000000009f0000009f00000000009f00000164000000000163000000000000000000000000000000080000040201660c104c620000000000000000000230c00a011ec68be0033b013200a0009f440100000077002e002e0b0b0423007f000000f700000410027d0707823c198246280164,
  0x16500000000000000000000000000000000000000000000000000000000000000000000000000000000000000000000000000000000000000000000000100000000000000000f0f0000007f0000000000000000000000000000000000000165,
  0x10009380406240000000000000000000000000000000000000000000000000000000000000000000000000000000000000000000000000000000000000000000000000000c400c400000000000000c4000001660000000001660000000000000000000000000000100c20220002156e0e100800000000000000000000001040000002868b2e4000000a003c009f41010000001a001a001a0b0b0432007f000000e00000050002870d0d5a5f4150324b0166,
  0x16700000000000000000000000000000000000000000000000000000000000000000000000000000000000000000000000000000000000000000000000203fe009a0069002e0f0f0300007f0000000000000000000000000000000000000167,
  0x1680000000000000000000000000000000000000000000000000000000000000000000000000000000000000000000000000000000000000000000000010000008c001700170f0f0000007f0000000000000000000000000000000000000168,
  0x8001240004004800000000000000000000000000000000000000000000000000000000000000000000000000000000000000000000000000000000000000000000000000cd000000000000000000cd00000169000000000169000000000000000000000000000000000000000000030c9000620000000000000000000030090000c08a8b2a000000a80046003c47010000008d007300270a060032007f000002890000000101eb0e0e3232323232320169,
  0x2901124800400d800000000000000000000000000000000000000000000000000000000000000000000000000000000000000000000000000000000000000000000000000ce000000000000000000ce0000016a000000000169000000000000000000000000000000000400041000230c9004620000000000000000000230090208c08a8f3a03000a05009600a8470203ff008d007300270a060032007f000000000000000202870e0e505050505050016a,
  0x802025200c00b000000000000000000000000000000000000000000000000000000000000000000000000000000000000000000000000000000000000000000000000000000000008f00000000008f0000016b00000000016b00000000000000000000000000000000000000000000cc1104720000000000000000000210000081209a8b600000018b0050003a41010000000c0073002f05020332007f000000000000000101e10a0e323719322846016b,
  0x802025200c00b00000000000000000000000000000000000000000000000000000000000000000000000000000000000000000000000000000000000000000000000000000000000900000000000900000016c00000000016b00000000000000000000000000000000000000000000cc1104720000000000000000000210000089209a8b600000036c006e009041010000000c0073002f05020332007f0000000000000002027d0a0e464b2d463c5a016c,
  0x903025a00c00b80000000000000000000000000000000000000000000000000000000000000000000000000000000000000000000000000000000000000000000000000000000000910000000000910000016d00000000016b000000000000000000000000000c0000840000000001cc11047b0000000000000004000210090089209a8b60030005e2008c010941010000000c0073002f05020332007f0000000000000003034b0a0e5a5f415a506e016d,
  0x16e00000000000000000000000000000000000000000000000000000000000000000000000000000000000000000000000000000000000000000000000100000000000000000f0f0000007f000000000000000000000000000000000000016e,
  0x16f00000000000000000000000000000000000000000000000000000000000000000000000000000000000000000000000000000000000000000000000100000000000000000f0f0000007f000000000000000000000000000000000000016f,
  0x17000000000000000000000000000000000000000000000000000000000000000000000000000000000000000000000000000000000000000000000000100000000000000000f0f0000007f0000000000000000000000000000000000000170,
  0x17100000000000000000000000000000000000000000000000000000000000000000000000000000000000000000000000000000000000000000000000100000005004500210f0f0500001f0000000000000000000000000000000000000171,
  0x17200000000000000000000000000000000000000000000000000000000000000000000000000000000000000000000000000000000000000000000000100000000000000000f0f000000bf0000000000000000000000000000000000000172,
  0x1730000000000000000000000000000000000000000000000000000000000000000000000000000000000000000000000000000000000000000000000010000007d004500450f0f0500007f0000000000000000000000000000000000000173,
  0x1740000000000000000000000000000000000000000000000000000000000000000000000000000000000000000000000000000000000000000000000010000008e004500450f0f0500007f0000000000000000000000000000000000000174,
  0x17500000000000000000000000000000000000000000000000000000000000000000000000000000000000000000000000000000000000000000000000204000099001600160f0f0500007f0000000000000000000000000000000000000175,
  0x17600000000000000000000000000000000000000000000000000000000000000000000000000000000000000000000000000000000000000000000000100000087001d001d0f0f050000ff0000000000000000000000000000000000000176,
  0x17700000000000000000000000000000000000000000000000000000000000000000000000000000000000000000000000000000000000000000000000100000087001d001d0f0f050000ff0000000000000000000000000000000000000177,
  0x17800000000000000000000000000000000000000000000000000000000000000000000000000000000000000000000000000000000000000000000000204010087001d001d0f0f050000ff0000000000000000000000000000000000000178,
  0x17900000000000000000000000000000000000000000000000000000000000000000000000000000000000000000000000000000000000000000000000100000005001d001d0f0f050000ff0000000000000000000000000000000000000179,
  0x17a00000000000000000000000000000000000000000000000000000000000000000000000000000000000000000000000000000000000000000000000100000073001d001d0f0f050000ff000000000000000000000000000000000000017a,
  0x17b00000000000000000000000000000000000000000000000000000000000000000000000000000000000000000000000000000000000000000000000100000087001d001d0f0f050000ff000000000000000000000000000000000000017b,
  0x17c0000000000000000000000000000000000000000000000000000000000000000000000000000000000000000000000000000000000000000000000020402001a001a001a0f0f050000fe000000000000000000000000000000000000017c,
  0x17d0000000000000000000000000000000000000000000000000000000000000000000000000000000000000000000000000000000000000000000000020403001a001a001a0f0f05000000000000000000000000000000000000000000017d,
  0x17e00000000000000000000000000000000000000000000000000000000000000000000000000000000000000000000000000000000000000000000000204040002000200020f0f050000ff000000000000000000000000000000000000017e,
  0x17f00000000000000000000000000000000000000000000000000000000000000000000000000000000000000000000000000000000000000000000000204050046004600460f0f050000ff000000000000000000000000000000000000017f,
  0x1800000000000000000000000000000000000000000000000000000000000000000000000000000000000000000000000000000000000000000000000020406004c004c004c0f0f050000ff0000000000000000000000000000000000000180,
  0x18100000000000000000000000000000000000000000000000000000000000000000000000000000000000000000000000000000000000000000000000100000020002000200f0f050000ff0000000000000000000000000000000000000181,
  0x18200000000000000000000000000000000000000000000000000000000000000000000000000000000000000000000000000000000000000000000000404070000000000000f0f000000ff0000000000000000000000000000000000000182,
  0x91000402a00000000000000000000000000000000000000000000000000000000000000000000000000000000000000000000000000000000000000000000000000000000000000082000000820000018300000000018300000000000000000000000000000020b08a080000818c12000300000001000000000100100000060084932e080000660028004043010000004b0041004107010332001f000000000000000401cd0b0b372d1f4044370183,
  0x91000402a00000000000000000000000000000000000000000000000000000000000000000000000000000000000000000000000000000000000000000000000000000000000000083000000830000018400000000018300000000000000000000000000000020b08a080000818c12000300000001000000000100100000060084932e080003ca006e008e43010000004b0041004107010332001f000000000000001402690b0b41372455594b0184,
  0x161091a00402a00000000000000000000000000000000000000000000000000000000000000000000000000000000000000000000000000000000000000000000000000000000000000084000000840000018500000000018300000000000000000000000000000020bc8a080000818d12040300000009000000040102100000070085936e0b000c1c00dc010743010000004b0041004107010332001f00000000000000180337040b554b38696d5f0185,
  0x200001403587200000000000000000000000000000000000000000000000000000000000000000000000000000000000000000000000000000000000000000000000000000000000000000003d003d0000018600000000018600000000000000000000000000000020321000010a38cc10a08500000002000000000000580209000bc48320a028003e0032003e4501000000590042004208050332001f000000000000004001cd09092c3a3d2c3a2c0186,
  0x200001613587200000000000000000000000000000000000000000000000000000000000000000000000000000000000000000000000000000000000000000000000000000000000000000003e003e0000018700000000018600000000000000000000000000000020321102a10a38cc10a08500000002000000000000d80209010bc48360a02800dc005a008e4501000000590042004208050332001f000000000000014002690109344e51344e400187,
  0x32100161b787a00000000000000000000000000000000000000000000000000000000000000000000000000000000000000000000000000000000000000000000000000000000000000000003f003f00000188000000000186000000000000000000000000000000203a1102a30a38cc10a48500000012000000000002d80209010bc48360ab2802260078010b4501000000590042004208050332001f00000000000001440337010947686c47684c0188,
  0x800024000c03200000000000000000000000000000000000000000000000000000000000000000000000000000000000000000000000000000000000000000000000000000000000a10000000000a100000189000000000189000000000000000000000000000000303000000000000c1110780000000400000000000010000881289a8b20800000340028003f4101000000800043004305020332001f000000000000010001cd0a0a383d283533350189,
  0x800024400c03200000000000000000000000000000000000000000000000000000000000000000000000000000000000000000000000000000000000000000000000000000000000a20000000000a20000018a000000000189000000000000000000000000000000303000000000000c1110780000000400000000000010020881289a8b20800000e60050008e4101000000800043004305020332001f000000000000020002690a0a4c5132444240018a,
  0x8901424600c03a00000000000000000000000000000000000000000000000000000000000000000000000000000000000000000000000000000000000000000000000000000000000a30000000000a30000018b000000000189000000000000000000000000000480303040000040000c1114790000002400000000000210030881289acb608300034d00aa01094101000000800043004305020332001f00000000000003000337080a656f3c585654018b,
  0x10000004250000000000000000000000000000000000000000000000000000000000000000000000000000000000000000000000000000000000000000000000000000000000000c0000000c000c0000018c00000000018c000000000000000000000000000000200004000000180c10100000000000000000000000100001000486c3a000400014001e00314501000000780033003304040332007f000000000000004001f502001e1e3c1e3728018c,
  0x10000004250000000000000000000000000000000000000000000000000000000000000000000000000000000000000000000000000000000000000000000000000000000000000d0000000d000d0000018d00000000018c000000000000000000000000000000200004000000180c10100000000000000000000000900001000486c3a00040009b003c00774501000000780016001604040332007f000000000000008002910200282850324b37018d,
  0x1010000004a50000000000000000000000000000000000000000000000000000000000000000000000000000000000000000000000000000000000000000000000000000000000000e0000000e000e0000018e00000000018c000000000000000000000000000000200004002000180c10100000000000000000000000900001000486c3a0034000f9007800f34501000000780016001604040332007f000000000000000c035f02003c3264467855018e,
  0xc0212900040620000000000000000000000000000000000000000000000000000000000000000000000000000000000000000000000000000000000000000000000000000a0000000a000a000a000a0000018f00000000018f000000000000000000000000000000203000000000a38c120361000000000000000000009000000000868ba0c00000c80032003245010000008d006d005605020032007f000000000000000101ff000028231f282d3b018f],
  [0xd0312d000406a0000000000000000000000000000000000000000000000000000000000000000000000000000000000000000000000000000000000000000000000000000b0000000b000b000b000b0000019000000000018f000000000000000000000000000400303000000000a38c130371000000000000000400029000080021968ba0c300013b0064009045010000008d006d005605020032007f0000000000000008029b0a003c37473c554f0190,
  0x270027002700000191000000000191000000000000000000000000000000000000000000080000000000000000000000000000000000000000000000000016001e0027400100000032003d003d03030332007f000001150000001001ff06062919192919250191,
  0x1010001804812100000000000000000000000000000000000000000000000000000000000000000000000000000000000000000000000000000000000000000000000000000000000000280028002800000192000000000191000000000000000000000000000080000000300004280c142001000000000000000040001000000008868321030000ff006400864001000000650044004403030332007f000001150000000802cd060633374133554d0192,
  0x484209000c040e0000000000000000000000000000000000000000000000000000000000000000000000000000000000000000000000000000000000000000000000000000000f00000000000f000f00000193000000000193000000000000000000000000000204410000000000018c10030000000000000000002021101c0000838287a24000005f0032003541010000003e0016004f05050332007f000000000000000401e10c0c22282d22412d0193,
  0x484209000c040e00000000000000000000000000000000000000000000000000000000000000000000000000000000000000000000000000000000000000000000000000000010000000000010001000000194000000000193000000000000000000000000000204410000000000018c10030000000000000000002021101c0000838287a240000131005a007f41010000003e0016004f05050364007f0000000000000008027d0c0c313c3c31553c0194,
  0x585209000c040e00000000000000000000000000000000000000000000000000000000000000000000000000000000000000000000000000000000000000000000000000000011000000000011001100000195000000000193000000000000000000000000000284410000000000818c10130000000000000000002421101c0000838287a2430001a4008c010641010000003e0016004f05050332007f000000000000000c034b0c0c4f5f464f78500195,
  0x95001040440000000000000000000000000000000000000000000000000000000000000000000000000000000000000000000000000000000000000000000000000000000590000005900000059000001960000000001960000000000000000000000000000100020820800000a0cd000010000000000000000000014000004418693200880000c001400384301000000660026001e0f0f0332007f000000f50000010001e1030b463237231e280196,
  0x101950010414400000000000000000000000000000000000000000000000000000000000000000000000000000000000000000000000000000000000000000000000000000005b0000005b0000005b0000019700000000013b0000000000000000000000000000180021820a40000a0cd000030000000000000000010014000004418693200f800091005a01024301000000650026001e07060332007f000000f500000300034b030b697d5a41463c0197,
  0xe20081a43482a00000000000000000000000000000000000000000000000000000000000000000000000000000000000000000000000000000000000000000000000000000000000000000000000d000000198000000000198000000000000000000000000000000001c28400000898c10a7650000000000000000000210000e01008787e18028013b005a004641010000007d0068006801010132001f000000000000000401d705051e1e3a287d430198,
  0xf61081a434c2a00000000000000000000000000000000000000000000000000000000000000000000000000000000000000000000000000000000000000000000000000000000000000000000000d100000199000000000198000000000000000000000000000000001c29400000898d10a7750000000000000004000210010e01099787e18328040100a000ad41010000007d0068006801010132001f00000000000000080273050532413a3ca5610199,
  0x8e20481a00482a00000000000000000000000000000000000000000000000000000000000000000000000000000000000000000000000000000000000000000000000000000000000000000000000d20000019a00000000019a000000000000000000000000000000009c48000040208c10a7660000000000000000000210000041008787618000023a0032004647010000002b0005000501010132001f000000000000001001d70805582a1e762a1e019a,
  0x8f61481a004c2a00000000000000000000000000000000000000000000000000000000000000000000000000000000000000000000000000000000000000000000000000000000000000000000000d30000019b00000000019a000000000000000000000000000000009c48000040208d10a766000000000000000400021001004100878761830005d7008200ad47010000002b0005000501010132001f0000000000000020027308058a2f1ea8343c019b,
  0x2b002b002b002b002b002b0000019c00000000019c0000000000000000000000000000000000000000000000000000000000000000000000040000000000000000000000220014002d4303040a008e003d003d03030032007f000000000000040001eb06062d1d242d1d28019c,
  0x110111000041000000000000000000000000000000000000000000000000000000000000000000000000000000000000000000000000000000000000000000000000000002c002c002c002c002c002c0000019d00000000019c0000000000000000000000000000000020822800010a0c1008000000000000000000000414000004008693a88b000041003200944303040c008e006b006b0303003200fe000000de0000080002870b06694f24553b3c019d,
  0x110111000042500000000000000000000000000000000000000000000000000000000000000000000000000000000000000000000000000000000000000000000000000002d002d002d002d002d002d0000019e00000000019c000000000000000000000000000000000002200001020c1008000000000000000000800454000100008693a80b0000e9005a00944203040e006e00440044030300320000000000de0000010402870206325e42325e46019e,
  0x24000000000000000000000000000000000000000000000000000000000000000000000000000000000000000000000000000000000000000000000000000000000000460046004600460000019f00000000019f000000000000000000000000000000000000200000000000000000000000000000000000000000000000010000000037001e00314201000000370076007603030332001f0000005e0000004001eb02062a1e462a1e1e019f,
  0x10104010046500000000000000000000000000000000000000000000000000000000000000000000000000000000000000000000000000000000000000000000000000000000000047004700470047000001a000000000019f000000000000000000000000000000000000b04000080c7000000000000000000000800076000d0005a683a103800181007800a642010000007f002e002e0303033200fe000000f5000004100287020666502866504601a0,
  0x480009002c0400000000000000000000000000000000000000000000000000000000000000000000000000000000000000000000000000000000000000000000000000000000000000006d0000006d000001a10000000001a1000000000000000000000000000000012200080000088c10030000000000000000000005100009008282a322c02000270028008e48010000000a0035003206050064007f000000000000004002b90c0c5a2d5f462d3c01a1,
  0x80202500450420000000000000000000000000000000000000000000000000000000000000000000000000000000000000000000000000000000000000000000000000000000000029000000290029000001a20000000001a200000000000000000000000000000010000000010000ac11107800000000000000000010100000812b9a8b2080100127004600424501000000290021002105020032007f000000000000004001eb0a0a1e3c5523413701a2,
  0x9030250045042800000000000000000000000000000000000000000000000000000000000000000000000000000000000000000000000000000000000000000000000000000000002a0000002a002a000001a30000000001a200000000000000000000000000040010000100010021ac1110f800000000000000000010100802812b9a8b208310014f006e00ad4501000000290021002105020032007f000000000000008002870a0a32557337695501a3,
  0x81000041000000000000000000000000000000000000000000000000000000000000000000000000000000000000000000000000000000000000000000000000000000000420000004200420042000001a40000000001a4000000000000000000000000000110002002080000000c1000010000000000000000018010000004428493280c000021002800374901000000220022002207060032007f000000ef0000010001eb0b0b353e232d232d01a4,
  0x18181000041000000000000000000000000000000000000000000000000000000000000000000000000000000000000000000000000000000000000000000000000000000000430000004300430043000001a50000000001a4000000000000000000000000000114002002080000000c1000010000000000000000018010000004428493281f00005d0032009e46020410007a007a007a07060032007f000000ef0000020002870b0b4e5755463c4601a5,
  0x8000a400040000000000000000000000000000000000000000000000000000000000000000000000000000000000000000000000000000000000000000000000000000000000000052000000520052000001a60000000001a6000000000000000000000000000000100008000020000c12007a00000000000000000000100000a0209a8b200000003f001e004146020411009f0072003c0b020032007f000000000000000101eb0a0a3e392230304c01a6,
  0x9210e4200400a0000000000000000000000000000000000000000000000000000000000000000000000000000000000000000000000000000000000000000000000000000000000053000000530053000001a70000000001a6000000000000000000000000000000104808000020000c53047a00000000000000040002100000a3609b8b608300012b005a00a646020412009f0072003c0b020032007f00000000000000020287040a525c2744536f01a7,
  0x50110540740520000000000000000000000000000000000000000000000000000000000000000000000000000000000000000000000000000000000000000000000000004f0000004f0000004f004f000001a80000000000be0000000000000000000000000000002222100800002aec10538200000000000000020010d8020f108da683a1cb3b00cb007800a946010000005c0035006505050464007f000000000000008002870000423c7342644b01a8,
  0x140012a0006a400000000000000000000000000000000000000000000000000000000000000000000000000000000000000000000000000000000000000000000000000002500000025000000250025000001a90000000001a9000000000000000000000000000000080000001201422c122b02000000000000000200007000020041c68bb04000000c0028004646010000008a0054006a0b0b0232007f000000000000000101eb02072c3c4622325a01a9,
  0x150112a0006e400000000000000000000000000000000000000000000000000000000000000000000000000000000000000000000000000000000000000000000000000002600000026000000260026000001aa0000000001a9000000000000000000000000000000080000001201422c122b02000000000000000200407000020051c68bb043400096007800ae46010000008a0054006a0b0b0232007f000000000000000202870207365a502c509601aa,
  0xc8010d00fc0420000000000000000000000000000000000000000000000000000000000000000000000000000000000000000000000000000000000000000000000000004000000000000000400040000001ab0000000001ab0000000000000000000000000000042020000000140aec1011a00000000000000000000098008e108386a320c83b0037002800464501000000070067003208050000007f000000000000004001eb0000382c552c423701ab,
  0xd8110d00fc0420000000000000000000000000000000000000000000000000000000000000000000000000000000000000000000000000000000000000000000000000004100000000000000410041000001ac0000000001ab0000000000000000000000000000042020010120140aec3013e000000000000000020000d8008f108386a320cb3b014d007800a8450204130007006700380805008c007f000000000000008002870000603669544c4101ac,
  0x350193a0006350000000000000000000000000000000000000000000000000000000000000000000000000000000000000000000000000000000000000000000000000000c600c600000000000000c6000001ad0000000000c80000000000000000000000000000100a00128402056a0c100b000000000000000000104031c0020090c68ba14700002c005a00ad46010000001a001a001a0b0b0423007f0000000000000500028707076969693c3c3c01ad,
  0x31013200006250000000000000000000000000000000000000000000000000000000000000000000000000000000000000000000000000000000000000000000000000000000000008d008d0000008d000001ae0000000000c6000000000000000000000000000002020014040200ba0c100800000000000000000080209000060004a6cfa143400111005a00b14401000000990069000f04040323007f000000000000000802870210346947347d6401ae,
  0x48010540040500000000000000000000000000000000000000000000000000000000000000000000000000000000000000000000000000000000000000000000000000009800000098000000000098000001af0000000001af000000000000000000000000000004220000000004228c10030000000000000000000000900207008086a3a0800000270032003e470100000033001400070505043200bf000000000000004001ff0000252a552a373101af,
  0x58110540040580000000000000000000000000000000000000000000000000000000000000000000000000000000000000000000000000000000000000000000000000009900000099000000000099000001b00000000001af000000000000000000000000000004220000000004228c10030200000000000000040002900207008086a3a0830001b60064009e4701000000800014002f0505043200bf0000000000000080029b00003b407040524701b0,
  0x10009380406240000000000000000000000000000000000000000000000000000000000000000000000000000000000000000000000000000000000000000000000000000c300c300000000000000c3000001b10000000001b10000000000000000000000000000100c20200002156e0e100800000000000000000000001040000002868b2e400000060014003942010000001a001a001a0f0f0432007f000000e00000010001eb0d0d32412d321e2d01b1,
  0x2280341410484200000000000000000000000000000000000000000000000000000000000000000000000000000000000000000000000000000000000000000000000000000006e0000006e0000006e000001b20000000001b200000000000000000000000000008c020010040000238c50a0040000000000000000003034020600018687a1800000c000280042460100000033006a000105050032007f000000000000004001eb100329294a2f3f3f01b2,
  0x2381341410484200000000000000000000000000000000000000000000000000000000000000000000000000000000000000000000000000000000000000000000000000000006f0000006f0000006f000001b30000000001b200000000000000000000000000008c020010060000238c50a0040000000000000000003034020600018687a1a300017c006400a8460100000033006a000105050032007f0000000000000002028710033d4754435d6701b3,
  0x90005082004028000000000000000000000000000000000000000000000000000000000000000000000000000000000000000000000000000000000000000000000000000b400b400000000000000b4000001b40000000001b400000000000000000000000000000008b040001241460e100c000000008000000000000230c072011087036e0800025d0032003c4301000000860055001a0a0a003200ff000000e90000001001eb0d0856181756183901b4,
  0x9101508a40402a000000000000000000000000000000000000000000000000000000000000000000000000000000000000000000000000000000000000000000000000000b500b500000000000000b5000001b50000000001b400000000000000000000000000080008b460001241460e100c000000008000000000080230c072015087036e0b00074e008200af4301000000860055001a0a0a003200ff000000e90000041002870d08744f2174594301b5,
  0x80200602000000000000000000000000000000000000000000000000000000000000000000000000000000000000000000000000000000000000000000000000000000007b0000007b0000007b000001b60000000001b6000000000000000000000000000000021008000200080c10008000000000000000040000100000038a8583f0800000960032003a45010000009b004500050f0f0032007f000000000000001001eb05052d0a0a5f503201b6,
  0x1400928048600000000000000000000000000000000000000000000000000000000000000000000000000000000000000000000000000000000000000000000000000000000000000000000004c004c000001b70000000001b70000000000000000000000000000100c20100002016e6e100b0000000000000000000a0011c088000a86abae48000082003c003e490100000065006f002b0f0f0032007f000000000000040001eb110d5a463c2d191401b7,
  0x1200124048e0000000000000000000000000000000000000000000000000000000000000000000000000000000000000000000000000000000000000000000000000000005600000056000000560056000001b80000000001b80000000000000000000000000000002420200000040a0c10c8040000000000000000000010008800028eab2a480000f4003c006e4901000000840020001e0f0f048c00fe00000000006e000101cd0000410f1e05056401b8,
  0x802000004650000000000000000000000000000000000000000000000000000000000000000000000000000000000000000000000000000000000000000000000000000000000009d00000000009d000001b90000000001b9000000000000000000000000000000200010000004384c10100000000000000000000000100001000086c3a00040001300320090440100000091004d003304040323007f0000011500000004027d02002a5c5b2d414c01b9,
  0x31013240006200000000000000000000000000000000000000000000000000000000000000000000000000000000000000000000000000000000000000000000000000000000000000000000000008b000001ba0000000001ba0000000000000000000000000000000a00100402006a0c10080000000000000000000060b080020110c68ba003000438006400aa460100000097002e002e0b0b0032007f0000000000000410024110076c5c236c5c3201ba,
  0x4260081a00407a000000000000000000000000000000000000000000000000000000000000000000000000000000000000000000000000000000000000000000000000000bb00bb00000000000000bb000001bb0000000001bb000000000000000000000000000000001c08400080008d108406000000400000000000021002002301878760800000cd0046003c410100000018000800080e010532007f000000000000000401cd040f2d282a2d463a01bb,
  0x4260081e00407a000000000000000000000000000000000000000000000000000000000000000000000000000000000000000000000000000000000000000000000000000bc00bc00000000000000bc000001bc0000000001bb000000000000000000000000000000001c08400080008d10840600000040000000000002100200230187876080000230008c0090410100000018000800080e010532007f00000000000000080269040f373252415a4401bc,
  0x4363081e10407a300000000000000000000000000000000000000000000000000000000000000000000000000000000000000000000000000000000000000000000000000bd00bd00000000000000bd000001bd0000000001bb000000000000000000000000000000001c08420080018d108417000000400000000e40021012082309978760830003b600be012c410204140018000800080e010532007f000000000000000c0337040f5550665f826c01bd,
  0x1e09124247400a0000000000000000000000000000000000000000000000000000000000000000000000000000000000000000000000000000000000000000000000000003300000000000000330033000001be0000000001be0000000000000000000000000000002002200800048a4c12cf7e00000000000000040002900008010897ab71083f041a003c004e440100000052002f00350f0f0532001f000000ea00ea000101ff000055280528558701be,
  0x165e584a000000000000000000000000000000000000000000000000000000000000000000000000000000000000000000000000000000000000000000000000000df000000000000000000df000001bf0000000001bf000000000000000000000000000000200031020142018c3014810000000000000000000298028a010f868361803300ca0046003941010000009e002700500f0f0332001f000000000000000401d7010128233c28462801bf,
  0xb12150565e784a000000000000000000000000000000000000000000000000000000000000000000000000000000000000000000000000000000000000000000000000000e0000000000000000000e0000001c00000000001bf000000000000000000000000000000200871472342038c303c810000008000000000000298028a010f8687618333021c007800b841020415009a0027005008050332001f00000000000001040273080146735a466e4601c0,
  0x8085200402a00000000000000000000000000000000000000000000000000000000000000000000000000000000000000000000000000000000000000000000000000000006b0000006b0000006b000001c10000000001c1000000000000000000000000000040001008000020818c120402000000000000000400021000002344858360800001ef0050004245010000009f002d002d05050532007f000000000000001001eb04042a26204e484401c1,
  0x129085a00402ae0000000000000000000000000000000000000000000000000000000000000000000000000000000000000000000000000000000000000000000000000000006c0000006c0000006c000001c20000000001c1000000000000000000000000000840009c08000020818c12040200000000000000040002101c00234485836083000bb800c800b845010000009f002d002d05050532007f00000000000000200287040448442f76706c01c2,
  0x200214111040121000000000000000000000000000000000000000000000000000000000000000000000000000000000000000000000000000000000000000000000000000000000094000000000094000001c30000000001c3000000000000000000000000000000000000364000238c5010010000000000000000400016000e01088687a180800078005000424601000000330061000409030532007f000000f50000001001eb0603371e415a322801c3,
  0x2103341390401af000000000000000000000000000000000000000000000000000000000000000000000000000000000000000000000000000000000000000000000000000000000095000000000095000001c40000000001c3000000000000000000000000000088000000364040238c54140100000000000000064022961c0e03088687e183800267008200af4601000000330061000409030532007f000000f500000020028710034b3c5f6e5a4601c4,
  0x20001e031e500a0000000000000000000000000000000000000000000000000000000000000000000000000000000000000000000000000000000000000000000000000000000630063006300000063000001c50000000001c5000000000000000000000000000008224211160100226c500480000000000000000000029c008e110e868be1803300e60046003c41010000008f0057006b08080064007f000001190000000401eb0103283d32283d3001c5,
  0x21211e031e500a0000000000000000000000000000000000000000000000000000000000000000000000000000000000000000000000000000000000000000000000000000000640064006400000064000001c60000000001c5000000000000000000000000000088224a11160100226c500481000000000000000000029e008e110e868be1833301bc008200ac41010000008f0057006b08080032007f000001190000000802870103415655416a5301c6,
  0x101050080410000000000000000000000000000000000000000000000000000000000000000000000000000000000000000000000000000000000000000000000000000000005c0000005c0000005c000001c70000000001c7000000000000000000000000000080002102080000010c5000010000000000000000000010000a04008493a00f00010e008c009f43010000001a001a001a07070532007f000000000000000802b90b0b485a2e48644a01c7,
  0x802024000c24000000000000000000000000000000000000000000000000000000000000000000000000000000000000000000000000000000000000000000000000000000000000ac0000000000ac000001c80000000001c8000000000000000000000000000000100000000000000c1110700000000000000000000010000390209aab280000004600280042410100000029007200210c0c0132007f000000000000004001eb0a0a3d314238313101c8,
  0x903024000c25000000000000000000000000000000000000000000000000000000000000000000000000000000000000000000000000000000000000000000000000000000000000ad0000000000ad000001c90000000001c8000000000000000000000000000000100000000000000c1110700000000000000000000010000390209aab28030000f0007800a1410100000029007200210c0c0132007f000000000000008002870a0a56455b4c454501c9,
  0x800024200405800000000000000000000000000000000000000000000000000000000000000000000000000000000000000000000000000000000000000000000000000000000000a40000000000a4000001ca0000000001ca000000000000000000000000000000100000000000000c1314780000000000000000800250000010239a8b600000028a00640045410100000029000b00210f0f0532007f000000000000040001eb020a783c3232142d01ca,
  0x8001350044100000000000000000000000000000000000000000000000000000000000000000000000000000000000000000000000000000000000000000000000000000d9000000000000000000d9000001cb0000000001cb000000000000000000000000000000002002080000028c1000610000000000000000000010010004408a9b2a0c1101f90064004348010000002b0075007507010532007f000000f60000000401eb0e0b3c3e28323e3c01cb,
  0x9411b5204410a000000000000000000000000000000000000000000000000000000000000000000000000000000000000000000000000000000000000000000000000000da000000000000000000da000001cc0000000001cb00000000000000000000000000000000208b080000028d100461000000000000000400021001080d488a9b6a0f13054b00dc00ad48020416002b0075007507010532007f000000f60000010402870e0b555c3c4b5c5a01cc,
  0x29013215346052100000000000000000000000000000000000000000000000000000000000000000000000000000000000000000000000000000000000000000000000000cc00cc00000000000000cc000001cd0000000100d7000000000000000000000000000080020011160200228c1010f10000000000000000402098230e088dbe8ba583130154006e00b344010000007c002e002e05050323007f000000d90000004402870e10552d7d41784601cd,
  0x850540880040c00000000000000000000000000000000000000000000000000000000000000000000000000000000000000000000000000000000000000000000000000000000b300000000000000b3000001ce000000000051000000000000000000000000000800498440001040000c180300000000800000000004051000000001860337430007080078010c4701000000940005002a0a0a003200ff000000e900000300034b080c5a823c73464601ce,
  0xf03125247400b0000000000000000000000000000000000000000000000000000000000000000000000000000000000000000000000000000000000000000000000000007e00000000007e0000007e000001cf00000000006c000000000000000000000000000800200121001020028c12877f00000000000000060002900008010a978bf18b3b057800aa00b449010000000d000c001401010032007f0000011700000003028700005f50325f556e01cf,
  0xf7b4a1e17402ae0000000000000000000000000000000000000000000000000000000000000000000000000000000000000000000000000000000000000000000000000000007a0000007a0000007a000001d000000000006f000000000000000000000000000841809c49420040899d30877f000000000000000f0002101f0a610a978fe0833f0b0c00f0010c4701000000780074001f05010532007f000000000000000c034b0504373728828c7301d0,
  0x101050210401a0000000000000000000000000000000000000000000000000000000000000000000000000000000000000000000000000000000000000000000000000000000000060006000000060000001d10000000000720000000000000000000000000000000021830a0000000c5204030000000000000006010210001a05088493e41b00050600c800bb4101000000900066002207070032007f000000000000002002870b0b326e327d646401d1,
  0x1705009207404a000000000000000000000000000000000000000000000000000000000000000000000000000000000000000000000000000000000000000000000000000b800b800000000000000b8000001d20000000000ef000000000000000000000000000020410001000000288c100f8600000000000000040407180008014b8283e3c33b056a00b4010e420100000048004e004e08080032003f000001420000000c034b0c0c555f5f437b4b01d2,
  0x1701003203480a00000000000000000000000000000000000000000000000000000000000000000000000000000000000000000000000000000000000000000000000000000000000b00000000000b0000001d30000000000f0000000000000000000000000000000000001008008388c10ad8600000000000000041002180018014ac483e02b2b02a800a0010e4001000000480031003108080032003f0000014300000300034b09095f7d53435f4b01d3,
  0x1381906048e3d20000000000000000000000000000000000000000000000000000000000000000000000000000000000000000000000000000000000000000000000000000000000081008100810081000001d40000000000af0000000000000000000000000000142c20300100045e6e1ac80600000000000000019080900088001b86e32e4f43017c009601114801000000690020003706040432001f0000000000000600033702117378505f325501d4,
  0x1101100080425000000000000000000000000000000000000000000000000000000000000000000000000000000000000000000000000000000000000000000000000000000006a0000006a0000006a000001d50000000000c10000000000000000000000000000000000002000000a0c34180100000000000000008000100001000084d3a10b00020300be00b4430100000077006e000303030032007f00000109000000080287020638745f564c5601d5,
  0x101111100e9520000000000000000000000000000000000000000000000000000000000000000000000000000000000000000000000000000000000000000000000000001f0000001f0000001f001f000001d600000000008500000000000000000000000000000024208218040402ac1020030000000000000000000090000004c386b3209f0400ff006400b84301000000220066006605050023001f000000000000002002730b0b413c5f826e4101d6,
  0x903125000e8428000000000000000000000000000000000000000000000000000000000000000000000000000000000000000000000000000000000000000000000000002000000020000000200020000001d700000000008500000000000000000000000000000024000000000402ac1020620000000000000000000090090008c38eab2083040103005000b84101000000730051005105050023001f000000000000020002730e0e5f82416e3c4101d7,
  0x21230c1310447ef00000000000000000000000000000000000000000000000000000000000000000000000000000000000000000000000000000000000000000000000000ba00ba00000000000000ba000001d80000000000cf00000000000000000000000000028000190816000020ac50140100000000000000024002561c0f030887c7e1838001a900c800b346010000005a0008003403030332007f0000000000000020028702044b2d5f7d5f4b01d8,
  0x9290a0a00c02a800000000000000000000000000000000000000000000000000000000000000000000000000000000000000000000000000000000000000000000000000d6000000000000000000d6000001d90000000000dc000000000000000000000000000840009c08000000800c120462000000000000000400021009006b008b8f6683000b5e00fa010945010000002f0051000c05050532007f000000000000000c034b040e3c465050826e01d9,
  0x3d0112904044d00000000000000000000000000000000000000000000000000000000000000000000000000000000000000000000000000000000000000000000000000000000000000000000000087000001da0000000001da0000000000000000000000000000000a00300400004a8e181b600000000000000000200410c0700001860ba04b000154005a010c4001000000940058005b0a0a003200ff0000000000000300033700004b875a46505501da,
  0x1d2193837f795a1000000000000000000000000000000000000000000000000000000000000000000000000000000000000000000000000000000000000000000000000006800000000006800000068000001db0000000001180000000000000000000000000000902c2823132705664e300d830000000000000000c28299e088011fc6abee573b020800a0010348020417009a005000500b0805230000000000000000000c034b010d734150417d4401db,
  0x8521480a0744aa0000000000000000000000000000000000000000000000000000000000000000000000000000000000000000000000000000000000000000000000000000000bf00000000000000bf000001dc00000000012b000000000000000000000000000810089c48800040240c18070200000000000000040003100000430285837043380d48008c00b847010000009f002a00050a0a0032007f000000f20000081002870805964b2891373c01dc,
  0x3901128287660a000000000000000000000000000000000000000000000000000000000000000000000000000000000000000000000000000000000000000000000000000a0000000a00000000000a0000001dd000000000163000000000000000000000000000020080001040201660c104c620000000000000000000230c00a011ec68be0033b042a00dc0107440100000077002e002e0b0b0423007f000000f700000810034b070787412d87642d01dd,
  0x1d011240044204800000000000000000000000000000000000000000000000000000000000000000000000000000000000000000000000000000000000000000000000000cf000000000000000000cf000001de000000000169000000000000000000000000000000080000000000630c900b620000000000000000008030090a08d0caab2e4310010a008200a8480100000082005100510a06003200fe00000000000000800287070e46506e46504601de,
  0x240010800042400000000000000000000000000000000000000000000000000000000000000000000000000000000000000000000000000000000000000000000000000000000c200000000000000c2000001df0000000001df0000000000000000000000000000000f00100400044a0c100300000000000000000024053000000003c603a640000003001e009a40060418001a001a001a0b0b003200ff00000000000001400255070c4d5f5b4d323201df,
  0x158191d06f64e0000000000000000000000000000000000000000000000000000000000000000000000000000000000000000000000000000000000000000000000000000e1000000000000000000e1000001e00000000001e00000000000000000000000000000140e303200020146ee1a4b000000000000000000008051e089001387132e4b380003001e012242010000001a001a001a0f0f058c00ff0000000000000420032d0d0d824b5f824b4b01e0,
  0x1d8191d06f60e00000000000000000000000000000000000000000000000000000000000000000000000000000000000000000000000000000000000000000000000000000000000000000000e200e2000001e10000000001e10000000000000000000000000000140c303200020146ee184b600000000000000000008051e089001387232e43380003001e012249010000001a001a001a0f0f058c00ff0000000000000504032d0d0d69695069695001e1,
  0x178191d06f64e0000000000000000000000000000000000000000000000000000000000000000000000000000000000000000000000000000000000000000000000000000000000000000e3000000e3000001e20000000001e20000000000000000000000000000140c30320002016eee18cb040000000000000000008051e08f001387033e43380003001e012241010000001a001a001a0f0f058c00ff0000000000000108032d0d0d467d73467d4b01e2,
  0xcf61481e00507a00000000000000000000000000000000000000000000000000000000000000000000000000000000000000000000000000000000000000000000000000000000000000000000000eb000001e30000000001e3000000000000000000000000000800009c48c101cc008d108766000000400000000c0002104200010987076843001aae021c01544802041d008c002e002e0f0f050000ff0000000000000300032d0f0864965a78786401e3,
  0x4f63084600505a00000000000000000000000000000000000000000000000000000000000000000000000000000000000000000000000000000000000000000000000000000000000000000000000ec000001e40000000001e4000000000000000000000000000c00008801c10184000d10877e000000400000000c000210430881299f076843000d2001a401544602041e008c002e002e0f0f050000ff0000000000000300032d0f0a78966464785a01e4,
  0xa321480a00402a20000000000000000000000000000000000000000000000000000000000000000000000000000000000000000000000000000000000000000000000000000000000e40000000000e4000001e50000000001e5000000000000000000000000000801009c40040048390c108406000000000000000400021010020100c48770ab0010cc00aa012c450100000031001200120f0f0564007f0000000000000300032d08096a824d6a5a5b01e5,
  0x5290a0a4f441a000000000000000000000000000000000000000000000000000000000000000000000000000000000000000000000000000000000000000000000000000e5000000000000000000e5000001e60000000001e6000000000000000000000000000861008c21000000800c1007020000000000000004000290018a010c860b68433b10680172014f480100000070007000700f0f050000ff000000000000000c030300006e50646ea06e01e6,
  0x75631b9c00625a00000000000000000000000000000000000000000000000000000000000000000000000000000000000000000000000000000000000000000000000000000000000000000000000ed000001e70000000001e7000000000000000000000000000000000c02450284028d100f02000000400000000a00423002020001c64f2843401d4c01c201544402041f008c002e002e0f0f050000ff0000000000000003032d0f0778645a78649601e7,
  0x190113806064400000000000000000000000000000000000000000000000000000000000000000000000000000000000000000000000000000000000000000000000000000000e600000000000000e6000001e80000000001e80000000000000000000000000000000c2022000211460e100822000000000000000000001160300003868b2e4b0003580096012c42010000001a001a001a0f0f056400fe0000000000000c00032d0d0d824b5578467801e8,
  0x800824040604000000000000000000000000000000000000000000000000000000000000000000000000000000000000000000000000000000000000000000000000000000000000000000000000ef000001e90000000001e9000000000000000000000000000410102000000000080c1100700000000000000000000010000990229a2b280000001f002800f041010000005d005d005d0602053200ff000000000000000103030a0a50505050505001e9,
  0x1901934040604000000000000000000000000000000000000000000000000000000000000000000000000000000000000000000000000000000000000000000000000000000000000000000000000f0000001ea0000000001e90000000000000000000000000004101020020002010a0c1108700000000000000000000010000990229a2b2e0300000e001e012c41010000005d005d005d0602053200ff000000000000000303030a0a64646464646401ea,
  0x3d01368718625200000000000000000000000000000000000000000000000000000000000000000000000000000000000000000000000000000000000000000000000000000000000000000000000f2000001eb0000000001eb000000000000000000000000000080020011160200620c500b610000000000000000006090828a0109c60be0430001f90096012c44010000007b007b007b0f0f050000ff0000000000000240032d10105a877d5a5a4601eb,
  0x1181890040c35000000000000000000000000000000000000000000000000000000000000000000000000000000000000000000000000000000000000000000000000000000000000000000000000f1000001ec0000000001ec0000000000000000000000000000100020aa080000000c1008010000000000000000800010000004008413280f0000150014012c43020420001e001e001e0f0f036400ff0000009d009d000303030b0b64646464646401ec,
  0xff63ffff50627a00000000000000000000000000000000000000000000000000000000000000000000000000000000000000000000000000000000000000000000000000000000000000000000000ee000001ed0000000001ed000000000000000000000000000400203c6b5602dc568f518f75000000400000000000229043028528df1b6e4b400c8001400168481304210079007900790f0f050000ff00000000000000030303000078787878787801ed,
  0x1ee000000000000000000000000000000000000000000000000000000000000000000000000000000000000000000000000000000000000000000000001000000a200a200a20f0f050000ff00000000000000000000000000000000000001ee,
  0x1ef00000000000000000000000000000000000000000000000000000000000000000000000000000000000000000000000000000000000000000000000100000000000000000f0f0000001f00000000000000000000000000000000000001ef,
  0x1f000000000000000000000000000000000000000000000000000000000000000000000000000000000000000000000000000000000000000000000000100000000000000000f0f0000001f00000000000000000000000000000000000001f0,
  0x1f100000000000000000000000000000000000000000000000000000000000000000000000000000000000000000000000000000000000000000000000100000000000000000f0f0000001f00000000000000000000000000000000000001f1,
  0x1f200000000000000000000000000000000000000000000000000000000000000000000000000000000000000000000000000000000000000000000000100000000000000000f0f0000001f00000000000000000000000000000000000001f2,
  0x1f300000000000000000000000000000000000000000000000000000000000000000000000000000000000000000000000000000000000000000000000100000000000000000f0f0000001f00000000000000000000000000000000000001f3],
  [0x1f400000000000000000000000000000000000000000000000000000000000000000000000000000000000000000000000000000000000000000000000100000000000000000f0f0000001f00000000000000000000000000000000000001f4,
  0x80202510048121000000000000000000000000000000000000000000000000000000000000000000000000000000000000000000000000000000000000000000000000000000000000000000000007000001f50000000001f500000000000000000000000000000030200010000020cc1120790000000400000000c00890000c80268a8b218000003b0032003e41010000004b0043004305050332001f000000000000010001cd0a0a2d3f2d2d373701f5,
  0x80202510048121000000000000000000000000000000000000000000000000000000000000000000000000000000000000000000000000000000000000000000000000000000000000000000000008000001f60000000001f500000000000000000000000000000030200010000020cc1120790000000400000000c00890000c80268a8b21800000f50050009141010000004b0043004305050332001f000000000000020002690a0a3c533c3c4b4b01f6,
  0x1f700000000000000000000000000000000000000000000000000000000000000000000000000000000000000000000000000000000000000000000000204330000000000000f0f0000001f00000000000000000000000000000000000001f7,
  0x1f800000000000000000000000000000000000000000000000000000000000000000000000000000000000000000000000000000000000000000000000100000000000000000f0f0000007f00000000000000000000000000000000000001f8,
  0x1f900000000000000000000000000000000000000000000000000000000000000000000000000000000000000000000000000000000000000000000000100000000000000000f0f0000007f00000000000000000000000000000000000001f9,
  0x1fa00000000000000000000000000000000000000000000000000000000000000000000000000000000000000000000000000000000000000000000000100000032003500480f0f0300007f00000000000000000000000000000000000001fa,
  0x1fb00000000000000000000000000000000000000000000000000000000000000000000000000000000000000000000000000000000000000000000000100000071009200160f0f0300007f00000000000000000000000000000000000001fb,
  0x1fc00000000000000000000000000000000000000000000000000000000000000000000000000000000000000000000000000000000000000000000000100000071009200160f0f0300007f00000000000000000000000000000000000001fc,
  0x1fd0000000000000000000000000000000000000000000000000000000000000000000000000000000000000000000000000000000000000000000000010000009e005400070f0f0000007f00000000000000000000000000000000000001fd,
  0x1fe0000000000000000000000000000000000000000000000000000000000000000000000000000000000000000000000000000000000000000000000010000009e005400070f0f0000007f00000000000000000000000000000000000001fe,
  0x1ff00000000000000000000000000000000000000000000000000000000000000000000000000000000000000000000000000000000000000000000000100000000000000000f0f0000001f00000000000000000000000000000000000001ff,
  0x20000000000000000000000000000000000000000000000000000000000000000000000000000000000000000000000000000000000000000000000000100000000000000000f0f0000001f0000000000000000000000000000000000000200,
  0x20100000000000000000000000000000000000000000000000000000000000000000000000000000000000000000000000000000000000000000000000100000000000000000f0f0000001f0000000000000000000000000000000000000201,
  0x20200000000000000000000000000000000000000000000000000000000000000000000000000000000000000000000000000000000000000000000000100000000000000000f0f0000001f0000000000000000000000000000000000000202,
  0x20300000000000000000000000000000000000000000000000000000000000000000000000000000000000000000000000000000000000000000000000100000000000000000f0f0000001f0000000000000000000000000000000000000203,
  0x20400000000000000000000000000000000000000000000000000000000000000000000000000000000000000000000000000000000000000000000000100000000000000000f0f0000001f0000000000000000000000000000000000000204,
  0x2050000000000000000000000000000000000000000000000000000000000000000000000000000000000000000000000000000000000000000000000010000008c001c006c0f0f0400007f0000000000000000000000000000000000000205,
  0x2060000000000000000000000000000000000000000000000000000000000000000000000000000000000000000000000000000000000000000000000010000008c001c006c0f0f0400007f0000000000000000000000000000000000000206,
  0x2070000000000000000000000000000000000000000000000000000000000000000000000000000000000000000000000000000000000000000000000010000004f006900910f0f0300007f0000000000000000000000000000000000000207,
  0x2080000000000000000000000000000000000000000000000000000000000000000000000000000000000000000000000000000000000000000000000010000004f006900910f0f0300007f0000000000000000000000000000000000000208,
  0x2090000000000000000000000000000000000000000000000000000000000000000000000000000000000000000000000000000000000000000000000010000004f006900910f0f0300007f0000000000000000000000000000000000000209,
  0x20a00000000000000000000000000000000000000000000000000000000000000000000000000000000000000000000000000000000000000000000000100000000000000000f0f0000007f000000000000000000000000000000000000020a,
  0x20b00000000000000000000000000000000000000000000000000000000000000000000000000000000000000000000000000000000000000000000000100000000000000000f0f0000007f000000000000000000000000000000000000020b,
  0x20c0000000000000000000000000000000000000000000000000000000000000000000000000000000000000000000000000000000000000000000000010000009f008500050f0f0300007f000000000000000000000000000000000000020c,
  0x20d0000000000000000000000000000000000000000000000000000000000000000000000000000000000000000000000000000000000000000000000010000009f008500050f0f0300007f000000000000000000000000000000000000020d,
  0x20e0000000000000000000000000000000000000000000000000000000000000000000000000000000000000000000000000000000000000000000000010000009f002d00050f0f0300007f000000000000000000000000000000000000020e,
  0x20f000000000000000000000000000000000000000000000000000000000000000000000000000000000000000000000000000000000000000000000001000000560067006d0f0f0000007f000000000000000000000000000000000000020f,
  0x210000000000000000000000000000000000000000000000000000000000000000000000000000000000000000000000000000000000000000000000001000000560067006d0f0f0000007f0000000000000000000000000000000000000210,
  0x21100000000000000000000000000000000000000000000000000000000000000000000000000000000000000000000000000000000000000000000000100000068009f00920f0f0000007f0000000000000000000000000000000000000211,
  0x21200000000000000000000000000000000000000000000000000000000000000000000000000000000000000000000000000000000000000000000000100000068009f00920f0f0000007f0000000000000000000000000000000000000212,
  0x21300000000000000000000000000000000000000000000000000000000000000000000000000000000000000000000000000000000000000000000000204340067009000830f0f0400007f0000000000000000000000000000000000000213,
  0x21400000000000000000000000000000000000000000000000000000000000000000000000000000000000000000000000000000000000000000000000100000059007d003e0f0f0300003f0000000000000000000000000000000000000214,
  0x21500000000000000000000000000000000000000000000000000000000000000000000000000000000000000000000000000000000000000000000000100000059007d003e0f0f0300003f0000000000000000000000000000000000000215,
  0x21600000000000000000000000000000000000000000000000000000000000000000000000000000000000000000000000000000000000000000000000100000059007d003e0f0f0300003f0000000000000000000000000000000000000216,
  0x2170000000000000000000000000000000000000000000000000000000000000000000000000000000000000000000000000000000000000000000000010000000b005d00210f0f0300007f0000000000000000000000000000000000000217,
  0x2180000000000000000000000000000000000000000000000000000000000000000000000000000000000000000000000000000000000000000000000010000000b005d00210f0f0300007f0000000000000000000000000000000000000218,
  0x2190000000000000000000000000000000000000000000000000000000000000000000000000000000000000000000000000000000000000000000000010000000b008f00210f0f0300007f0000000000000000000000000000000000000219,
  0x21a000000000000000000000000000000000000000000000000000000000000000000000000000000000000000000000000000000000000000000000001000000680027003e0f0f00000000000000000000000000000000000000000000021a,
  0x21b00000000000000000000000000000000000000000000000000000000000000000000000000000000000000000000000000000000000000000000000100000068002700050f0f00000000000000000000000000000000000000000000021b,
  0x21c00000000000000000000000000000000000000000000000000000000000000000000000000000000000000000000000000000000000000000000000100000000000000000f0f0000007f000000000000000000000000000000000000021c,
  0x21d00000000000000000000000000000000000000000000000000000000000000000000000000000000000000000000000000000000000000000000000100000000000000000f0f0000007f000000000000000000000000000000000000021d,
  0x21e00000000000000000000000000000000000000000000000000000000000000000000000000000000000000000000000000000000000000000000000100000000000000000f0f0000007f000000000000000000000000000000000000021e,
  0x21f00000000000000000000000000000000000000000000000000000000000000000000000000000000000000000000000000000000000000000000000100000003004400260f0f0300007f000000000000000000000000000000000000021f,
  0x22000000000000000000000000000000000000000000000000000000000000000000000000000000000000000000000000000000000000000000000000100000003004400260f0f0300007f0000000000000000000000000000000000000220,
  0x22100000000000000000000000000000000000000000000000000000000000000000000000000000000000000000000000000000000000000000000000100000003004400260f0f0300007f0000000000000000000000000000000000000221,
  0x222000000000000000000000000000000000000000000000000000000000000000000000000000000000000000000000000000000000000000000000001000000220097009e0f0f0000007f0000000000000000000000000000000000000222,
  0x223000000000000000000000000000000000000000000000000000000000000000000000000000000000000000000000000000000000000000000000001000000220097009e0f0f0000007f0000000000000000000000000000000000000223,
  0x10000c1000000000000000000000000000000000000000000000000000000000000000000000000000000000000000000000000000000000000000000000000000000000000000005d0000005d00000224000000000224000000000000000000000000000100002082080000004c10000000000000000000000000100000000284b3280c00004200320038430100000066001400220707003200fe000002210000010001eb0b0b32461e32232d0224,
  0x22500000000000000000000000000000000000000000000000000000000000000000000000000000000000000000000000000000000000000000000000304350066001400220f0f000000fe0000000000000000000000000000000000000225,
  0x22600000000000000000000000000000000000000000000000000000000000000000000000000000000000000000000000000000000000000000000000304370068005b00780f0f0000007f0000000000000000000000000000000000000226,
  0x22700000000000000000000000000000000000000000000000000000000000000000000000000000000000000000000000000000000000000000000000100000053009900160f0f0300007f0000000000000000000000000000000000000227,
  0x22800000000000000000000000000000000000000000000000000000000000000000000000000000000000000000000000000000000000000000000000100000053009900160f0f0300007f0000000000000000000000000000000000000228,
  0x22900000000000000000000000000000000000000000000000000000000000000000000000000000000000000000000000000000000000000000000000100000053009900160f0f0300007f0000000000000000000000000000000000000229,
  0x22a00000000000000000000000000000000000000000000000000000000000000000000000000000000000000000000000000000000000000000000000204390027003700370f0f0300007f000000000000000000000000000000000000022a,
  0x22b000000000000000000000000000000000000000000000000000000000000000000000000000000000000000000000000000000000000000000000004043a00a1007d007d0f0f0300007f000000000000000000000000000000000000022b,
  0x22c000000000000000000000000000000000000000000000000000000000000000000000000000000000000000000000000000000000000000000000001000000720022000b0f0f0000007f000000000000000000000000000000000000022c,
  0x22d00000000000000000000000000000000000000000000000000000000000000000000000000000000000000000000000000000000000000000000000100000085004b00050f0f0000007f000000000000000000000000000000000000022d,
  0x22e00000000000000000000000000000000000000000000000000000000000000000000000000000000000000000000000000000000000000000000000100000085004b00050f0f0000007f000000000000000000000000000000000000022e,
  0x22f000000000000000000000000000000000000000000000000000000000000000000000000000000000000000000000000000000000000000000000001000000160099003d0f0f0000007f000000000000000000000000000000000000022f,
  0x230000000000000000000000000000000000000000000000000000000000000000000000000000000000000000000000000000000000000000000000001000000160099003d0f0f0000007f0000000000000000000000000000000000000230,
  0x2310000000000000000000000000000000000000000000000000000000000000000000000000000000000000000000000000000000000000000000000010000006e006200930f0f0000007f0000000000000000000000000000000000000231,
  0x232000000000000000000000000000000000000000000000000000000000000000000000000000000000000000000000000000000000000000000000002043d0098009800980f0f0000007f0000000000000000000000000000000000000232,
  0x23300000000000000000000000000000000000000000000000000000000000000000000000000000000000000000000000000000000000000000000000100000098009800980f0f0000007f0000000000000000000000000000000000000233,
  0x23400000000000000000000000000000000000000000000000000000000000000000000000000000000000000000000000000000000000000000000000100000021000500740f0f0000001f0000000000000000000000000000000000000234,
  0x23500000000000000000000000000000000000000000000000000000000000000000000000000000000000000000000000000000000000000000000000100000021000500740f0f0000001f0000000000000000000000000000000000000235,
  0x23600000000000000000000000000000000000000000000000000000000000000000000000000000000000000000000000000000000000000000000000100000081008100810f0f0000001f0000000000000000000000000000000000000236,
  0x23700000000000000000000000000000000000000000000000000000000000000000000000000000000000000000000000000000000000000000000000100000081008100810f0f0000001f0000000000000000000000000000000000000237,
  0x2380000000000000000000000000000000000000000000000000000000000000000000000000000000000000000000000000000000000000000000000010000006a003c00010f0f0000007f0000000000000000000000000000000000000238,
  0x2390000000000000000000000000000000000000000000000000000000000000000000000000000000000000000000000000000000000000000000000010000006a008500010f0f0000007f0000000000000000000000000000000000000239,
  0x23a000000000000000000000000000000000000000000000000000000000000000000000000000000000000000000000000000000000000000000000002043e0095009500950f0f0300001f000000000000000000000000000000000000023a,
  0x23b000000000000000000000000000000000000000000000000000000000000000000000000000000000000000000000000000000000000000000000002043f0095009500950f0f0300001f000000000000000000000000000000000000023b,
  0x23c0000000000000000000000000000000000000000000000000000000000000000000000000000000000000000000000000000000000000000000000010000005c006500380f0f040000bf000000000000000000000000000000000000023c,
  0x23d0000000000000000000000000000000000000000000000000000000000000000000000000000000000000000000000000000000000000000000000010000005c006500380f0f040000bf000000000000000000000000000000000000023d,
  0x23e0000000000000000000000000000000000000000000000000000000000000000000000000000000000000000000000000000000000000000000000010000001700ac00770f0f030000bf000000000000000000000000000000000000023e,
  0x23f0000000000000000000000000000000000000000000000000000000000000000000000000000000000000000000000000000000000000000000000010000001700ac00770f0f030000bf000000000000000000000000000000000000023f,
  0x2400000000000000000000000000000000000000000000000000000000000000000000000000000000000000000000000000000000000000000000000010000001700ac00770f0f030000bf0000000000000000000000000000000000000240,
  0x241000000000000000000000000000000000000000000000000000000000000000000000000000000000000000000000000000000000000000000000001000000900062008e0f0f0300007f0000000000000000000000000000000000000241,
  0x242000000000000000000000000000000000000000000000000000000000000000000000000000000000000000000000000000000000000000000000001000000900062008e0f0f0300007f0000000000000000000000000000000000000242,
  0x243000000000000000000000000000000000000000000000000000000000000000000000000000000000000000000000000000000000000000000000001000000900062008e0f0f0300007f0000000000000000000000000000000000000243,
  0x24400000000000000000000000000000000000000000000000000000000000000000000000000000000000000000000000000000000000000000000000100000000000000000f0f0000007f0000000000000000000000000000000000000244,
  0x24500000000000000000000000000000000000000000000000000000000000000000000000000000000000000000000000000000000000000000000000100000000000000000f0f0000007f0000000000000000000000000000000000000245,
  0x24600000000000000000000000000000000000000000000000000000000000000000000000000000000000000000000000000000000000000000000000100000085005100730f0f0500007f0000000000000000000000000000000000000246,
  0x24700000000000000000000000000000000000000000000000000000000000000000000000000000000000000000000000000000000000000000000000100000085005100730f0f0500007f0000000000000000000000000000000000000247,
  0x24800000000000000000000000000000000000000000000000000000000000000000000000000000000000000000000000000000000000000000000000100000085007500730f0f0500007f0000000000000000000000000000000000000248,
  0x24900000000000000000000000000000000000000000000000000000000000000000000000000000000000000000000000000000000000000000000000404400000000000000f0f0000007f0000000000000000000000000000000000000249,
  0x24a00000000000000000000000000000000000000000000000000000000000000000000000000000000000000000000000000000000000000000000000404430000000000000f0f0000007f000000000000000000000000000000000000024a,
  0x24b0000000000000000000000000000000000000000000000000000000000000000000000000000000000000000000000000000000000000000000000010000004e000900090f0f0000007f000000000000000000000000000000000000024b,
  0x24c00000000000000000000000000000000000000000000000000000000000000000000000000000000000000000000000000000000000000000000000100000063003d00440f0f0000007f000000000000000000000000000000000000024c,
  0x24d0000000000000000000000000000000000000000000000000000000000000000000000000000000000000000000000000000000000000000000000010000008e004b00440f0f0000007f000000000000000000000000000000000000024d,
  0x24e00000000000000000000000000000000000000000000000000000000000000000000000000000000000000000000000000000000000000000000000100000090001b001b0f0f0000007f000000000000000000000000000000000000024e,
  0x24f00000000000000000000000000000000000000000000000000000000000000000000000000000000000000000000000000000000000000000000000100000090001b001b0f0f0000007f000000000000000000000000000000000000024f,
  0x250000000000000000000000000000000000000000000000000000000000000000000000000000000000000000000000000000000000000000000000001000000060082000b0f0f0000007f0000000000000000000000000000000000000250,
  0x251000000000000000000000000000000000000000000000000000000000000000000000000000000000000000000000000000000000000000000000001000000060082000b0f0f0000007f0000000000000000000000000000000000000251,
  0x25200000000000000000000000000000000000000000000000000000000000000000000000000000000000000000000000000000000000000000000000100000000000000000f0f0000007f0000000000000000000000000000000000000252,
  0x25300000000000000000000000000000000000000000000000000000000000000000000000000000000000000000000000000000000000000000000000100000044007f000e0f0f0000007f0000000000000000000000000000000000000253,
  0x25400000000000000000000000000000000000000000000000000000000000000000000000000000000000000000000000000000000000000000000000100000044007f000e0f0f0000007f0000000000000000000000000000000000000254,
  0x255000000000000000000000000000000000000000000000000000000000000000000000000000000000000000000000000000000000000000000000001000000a000a000a00f0f0000007f0000000000000000000000000000000000000255,
  0x2560000000000000000000000000000000000000000000000000000000000000000000000000000000000000000000000000000000000000000000000010000006b00a000a00f0f0000007f0000000000000000000000000000000000000256,
  0x2570000000000000000000000000000000000000000000000000000000000000000000000000000000000000000000000000000000000000000000000010000001d003a00390f0f030000ff0000000000000000000000000000000000000257],
  [0x2580000000000000000000000000000000000000000000000000000000000000000000000000000000000000000000000000000000000000000000000010000001d003a00390f0f030000ff0000000000000000000000000000000000000258,
  0x2590000000000000000000000000000000000000000000000000000000000000000000000000000000000000000000000000000000000000000000000010000001d003a00390f0f030000ff0000000000000000000000000000000000000259,
  0x25a00000000000000000000000000000000000000000000000000000000000000000000000000000000000000000000000000000000000000000000000100000000000000000f0f0000007f000000000000000000000000000000000000025a,
  0x25b00000000000000000000000000000000000000000000000000000000000000000000000000000000000000000000000000000000000000000000000100000000000000000f0f0000007f000000000000000000000000000000000000025b,
  0x25c00000000000000000000000000000000000000000000000000000000000000000000000000000000000000000000000000000000000000000000000100000000000000000f0f0000007f000000000000000000000000000000000000025c,
  0x25d00000000000000000000000000000000000000000000000000000000000000000000000000000000000000000000000000000000000000000000000100000094001c008c0f0f0000007f000000000000000000000000000000000000025d,
  0x25e00000000000000000000000000000000000000000000000000000000000000000000000000000000000000000000000000000000000000000000000100000094001c008c0f0f0000007f000000000000000000000000000000000000025e,
  0x25f00000000000000000000000000000000000000000000000000000000000000000000000000000000000000000000000000000000000000000000000100000097003100120f0f0300007f000000000000000000000000000000000000025f,
  0x26000000000000000000000000000000000000000000000000000000000000000000000000000000000000000000000000000000000000000000000000100000097003100120f0f0300007f0000000000000000000000000000000000000260,
  0x26100000000000000000000000000000000000000000000000000000000000000000000000000000000000000000000000000000000000000000000000100000097003100120f0f0300007f0000000000000000000000000000000000000261,
  0x2620000000000000000000000000000000000000000000000000000000000000000000000000000000000000000000000000000000000000000000000010000007f0068004f0f0f0500007f0000000000000000000000000000000000000262,
  0x2630000000000000000000000000000000000000000000000000000000000000000000000000000000000000000000000000000000000000000000000010000007f0068004f0f0f0500007f0000000000000000000000000000000000000263,
  0x2640000000000000000000000000000000000000000000000000000000000000000000000000000000000000000000000000000000000000000000000010000007f0068004f0f0f0500007f0000000000000000000000000000000000000264,
  0x2650000000000000000000000000000000000000000000000000000000000000000000000000000000000000000000000000000000000000000000000010000009b00ca00510f0f0000007f0000000000000000000000000000000000000265,
  0x2660000000000000000000000000000000000000000000000000000000000000000000000000000000000000000000000000000000000000000000000010000002100ca00510f0f0000007f0000000000000000000000000000000000000266,
  0x2670000000000000000000000000000000000000000000000000000000000000000000000000000000000000000000000000000000000000000000000010000001a001a001a0f0f000000ff0000000000000000000000000000000000000267,
  0x2680000000000000000000000000000000000000000000000000000000000000000000000000000000000000000000000000000000000000000000000010000008e004b005d0f0f0000007f0000000000000000000000000000000000000268,
  0x26900000000000000000000000000000000000000000000000000000000000000000000000000000000000000000000000000000000000000000000000100000054003c005d0f0f0000007f0000000000000000000000000000000000000269,
  0x26a00000000000000000000000000000000000000000000000000000000000000000000000000000000000000000000000000000000000000000000000204460008000700090f0f0000007f000000000000000000000000000000000000026a,
  0x26b00000000000000000000000000000000000000000000000000000000000000000000000000000000000000000000000000000000000000000000000100000078009000270f0f0300007f000000000000000000000000000000000000026b,
  0x26c00000000000000000000000000000000000000000000000000000000000000000000000000000000000000000000000000000000000000000000000100000078009000270f0f0300007f000000000000000000000000000000000000026c,
  0x26d00000000000000000000000000000000000000000000000000000000000000000000000000000000000000000000000000000000000000000000000100000068007d00180f0f0000007f000000000000000000000000000000000000026d,
  0x26e00000000000000000000000000000000000000000000000000000000000000000000000000000000000000000000000000000000000000000000000100000063006700590f0f000000ff000000000000000000000000000000000000026e,
  0x26f00000000000000000000000000000000000000000000000000000000000000000000000000000000000000000000000000000000000000000000000100000063006700590f0f000000ff000000000000000000000000000000000000026f,
  0x2700000000000000000000000000000000000000000000000000000000000000000000000000000000000000000000000000000000000000000000000010000002e002700800f0f0000007f0000000000000000000000000000000000000270,
  0x2710000000000000000000000000000000000000000000000000000000000000000000000000000000000000000000000000000000000000000000000010000002e002700800f0f0000007f0000000000000000000000000000000000000271,
  0x2720000000000000000000000000000000000000000000000000000000000000000000000000000000000000000000000000000000000000000000000010000002b009d00780f0f0000007f0000000000000000000000000000000000000272,
  0x6405252000000000000000000000000000000000000000000000000000000000000000000000000000000000000000000000000000000000000000000000000000dd000000000000000000dd00000273000000000273000000000000000000000000000002200024002100900c10100000000000000000008000900205010186c7600040006900320046480100000037007d0033040405320000000000000000000401eb020032253c3253460273,
  0x27400000000000000000000000000000000000000000000000000000000000000000000000000000000000000000000000000000000000000000000000204470080007d00330f0f050000000000000000000000000000000000000000000274,
  0x27500000000000000000000000000000000000000000000000000000000000000000000000000000000000000000000000000000000000000000000000100000085008e00910f0f050000fe0000000000000000000000000000000000000275,
  0x27600000000000000000000000000000000000000000000000000000000000000000000000000000000000000000000000000000000000000000000000100000085008e00910f0f050000fe0000000000000000000000000000000000000276,
  0x27700000000000000000000000000000000000000000000000000000000000000000000000000000000000000000000000000000000000000000000000100000049001200520f0f0000007f0000000000000000000000000000000000000277,
  0x27800000000000000000000000000000000000000000000000000000000000000000000000000000000000000000000000000000000000000000000000100000036003700440f0f0000007f0000000000000000000000000000000000000278,
  0x27900000000000000000000000000000000000000000000000000000000000000000000000000000000000000000000000000000000000000000000000100000037003700370f0f0500007f0000000000000000000000000000000000000279,
  0x27a00000000000000000000000000000000000000000000000000000000000000000000000000000000000000000000000000000000000000000000000100000037003700370f0f0500007f000000000000000000000000000000000000027a,
  0x27b0000000000000000000000000000000000000000000000000000000000000000000000000000000000000000000000000000000000000000000000010000001a001a001a0f0f0500007f000000000000000000000000000000000000027b,
  0x27c00000000000000000000000000000000000000000000000000000000000000000000000000000000000000000000000000000000000000000000000100000044003100310f0f0500007f000000000000000000000000000000000000027c,
  0x27d00000000000000000000000000000000000000000000000000000000000000000000000000000000000000000000000000000000000000000000000100000044003100310f0f0500007f000000000000000000000000000000000000027d,
  0x27e0000000000000000000000000000000000000000000000000000000000000000000000000000000000000000000000000000000000000000000000010000009a009a009a0f0f050000ff000000000000000000000000000000000000027e,
  0x27f0000000000000000000000000000000000000000000000000000000000000000000000000000000000000000000000000000000000000000000000010000009a009a009a0f0f050000ff000000000000000000000000000000000000027f,
  0x2800000000000000000000000000000000000000000000000000000000000000000000000000000000000000000000000000000000000000000000000010000009a009a009a0f0f050000ff0000000000000000000000000000000000000280,
  0x31010610005012000000000000000000000000000000000000000000000000000000000000000000000000000000000000000000000000000000000000000000000000000e7000000000000000000e700000281000000000281000000000000000000000000000002026011040100b98c5018020000000000000002800050000f004c828fa00340027600960122430204480080009e009e0f0f055a0000000000000000000c03030202507d6f46734f0281,
  0x3505449002540200000000000000000000000000000000000000000000000000000000000000000000000000000000000000000000000000000000000000000000000000000000000e80000000000e800000282000000000282000000000000000000000000000000436051040100a98c501b020000000000000003200510000f004c8287a04360026200960122410204490080009e009e0f0f055a0000000000000000000c0303020c507d6f46734f0282,
  0x283000000000000000000000000000000000000000000000000000000000000000000000000000000000000000000000000000000000000000000000001000000a300a300a30f0f050000ff0000000000000000000000000000000000000283,
  0x284000000000000000000000000000000000000000000000000000000000000000000000000000000000000000000000000000000000000000000000001000000a400a400a40f0f050000ff0000000000000000000000000000000000000284,
  0x11610c1200702a0000000000000000000000000000000000000000000000000000000000000000000000000000000000000000000000000000000000000000000000000000000000000000000e900e900000285000000000285000000000000000000000000000000007809000300808d500c030000000000000002000210000b2358818770834002a80096012c4502044a007d009f009f0f0f055a00000000000000000300030302045073655a7d590285,
  0x286000000000000000000000000000000000000000000000000000000000000000000000000000000000000000000000000000000000000000000000003044b002e002e002e0f0f050000ff0000000000000000000000000000000000000286,
  0x287000000000000000000000000000000000000000000000000000000000000000000000000000000000000000000000000000000000000000000000002044d009a009a009a0f0f050000ff0000000000000000000000000000000000000287,
  0x288000000000000000000000000000000000000000000000000000000000000000000000000000000000000000000000000000000000000000000000002044e0000000000000f0f000000ff0000000000000000000000000000000000000288,
  0x289000000000000000000000000000000000000000000000000000000000000000000000000000000000000000000000000000000000000000000000005044f0058005800580f0f050000ff0000000000000000000000000000000000000289,
  0x28a00000000000000000000000000000000000000000000000000000000000000000000000000000000000000000000000000000000000000000000000100000000000000000f0f0000001f000000000000000000000000000000000000028a,
  0x28b00000000000000000000000000000000000000000000000000000000000000000000000000000000000000000000000000000000000000000000000100000000000000000f0f0000001f000000000000000000000000000000000000028b,
  0x28c00000000000000000000000000000000000000000000000000000000000000000000000000000000000000000000000000000000000000000000000100000000000000000f0f0000001f000000000000000000000000000000000000028c,
  0x28d00000000000000000000000000000000000000000000000000000000000000000000000000000000000000000000000000000000000000000000000100000000000000000f0f0000001f000000000000000000000000000000000000028d,
  0x28e00000000000000000000000000000000000000000000000000000000000000000000000000000000000000000000000000000000000000000000000100000000000000000f0f0000001f000000000000000000000000000000000000028e,
  0x28f00000000000000000000000000000000000000000000000000000000000000000000000000000000000000000000000000000000000000000000000100000000000000000f0f0000001f000000000000000000000000000000000000028f,
  0x29000000000000000000000000000000000000000000000000000000000000000000000000000000000000000000000000000000000000000000000000100000000000000000f0f0000001f0000000000000000000000000000000000000290,
  0x29100000000000000000000000000000000000000000000000000000000000000000000000000000000000000000000000000000000000000000000000100000000000000000f0f0000001f0000000000000000000000000000000000000291,
  0x29200000000000000000000000000000000000000000000000000000000000000000000000000000000000000000000000000000000000000000000000304530000000000000f0f0000001f0000000000000000000000000000000000000292,
  0x2930000000000000000000000000000000000000000000000000000000000000000000000000000000000000000000000000000000000000000000000010000002500a700350f0f0000007f0000000000000000000000000000000000000293,
  0x2940000000000000000000000000000000000000000000000000000000000000000000000000000000000000000000000000000000000000000000000010000002500a700350f0f0000007f0000000000000000000000000000000000000294,
  0x295000000000000000000000000000000000000000000000000000000000000000000000000000000000000000000000000000000000000000000000001000000b1009100910f0f0300007f0000000000000000000000000000000000000295,
  0x296000000000000000000000000000000000000000000000000000000000000000000000000000000000000000000000000000000000000000000000001000000b1003100310f0f0300007f0000000000000000000000000000000000000296,
  0x297000000000000000000000000000000000000000000000000000000000000000000000000000000000000000000000000000000000000000000000001000000b1003100310f0f0300007f0000000000000000000000000000000000000297,
  0x29800000000000000000000000000000000000000000000000000000000000000000000000000000000000000000000000000000000000000000000001404550000000000000f0f0000007f0000000000000000000000000000000000000298,
  0x29900000000000000000000000000000000000000000000000000000000000000000000000000000000000000000000000000000000000000000000001404680000000000000f0f0000007f0000000000000000000000000000000000000299,
  0x29a000000000000000000000000000000000000000000000000000000000000000000000000000000000000000000000000000000000000000000000014047b0000000000000f0f0000007f000000000000000000000000000000000000029a,
  0x29b00000000000000000000000000000000000000000000000000000000000000000000000000000000000000000000000000000000000000000000000100000000000000000f0f000000e1000000000000000000000000000000000000029b,
  0x29c00000000000000000000000000000000000000000000000000000000000000000000000000000000000000000000000000000000000000000000000100000000000000000f0f000000e1000000000000000000000000000000000000029c,
  0x29d000000000000000000000000000000000000000000000000000000000000000000000000000000000000000000000000000000000000000000000005048e0000000000000f0f000000fe000000000000000000000000000000000000029d,
  0x29e00000000000000000000000000000000000000000000000000000000000000000000000000000000000000000000000000000000000000000000000604920000000000000f0f000000fe000000000000000000000000000000000000029e,
  0x29f00000000000000000000000000000000000000000000000000000000000000000000000000000000000000000000000000000000000000000000000504970000000000000f0f000000fe000000000000000000000000000000000000029f,
  0x2a000000000000000000000000000000000000000000000000000000000000000000000000000000000000000000000000000000000000000000000000100000000000000000f0f0000007f00000000000000000000000000000000000002a0,
  0x2a100000000000000000000000000000000000000000000000000000000000000000000000000000000000000000000000000000000000000000000000100000000000000000f0f0000007f00000000000000000000000000000000000002a1,
  0x2a200000000000000000000000000000000000000000000000000000000000000000000000000000000000000000000000000000000000000000000000100000071006800590f0f0000007f00000000000000000000000000000000000002a2,
  0x2a300000000000000000000000000000000000000000000000000000000000000000000000000000000000000000000000000000000000000000000000100000071006800590f0f0000007f00000000000000000000000000000000000002a3,
  0x2a400000000000000000000000000000000000000000000000000000000000000000000000000000000000000000000000000000000000000000000000a049b0000000000000f0f0000007f00000000000000000000000000000000000002a4,
  0x2a500000000000000000000000000000000000000000000000000000000000000000000000000000000000000000000000000000000000000000000000100000014009700330f0f0000007f00000000000000000000000000000000000002a5,
  0x2a600000000000000000000000000000000000000000000000000000000000000000000000000000000000000000000000000000000000000000000000204a4009e009700330f0f0000000000000000000000000000000000000000000002a6,
  0x2a700000000000000000000000000000000000000000000000000000000000000000000000000000000000000000000000000000000000000000000000100000063006300630f0f0000007f00000000000000000000000000000000000002a7,
  0x2a800000000000000000000000000000000000000000000000000000000000000000000000000000000000000000000000000000000000000000000000100000063006300630f0f0000007f00000000000000000000000000000000000002a8,
  0x2a900000000000000000000000000000000000000000000000000000000000000000000000000000000000000000000000000000000000000000000000204a500b000b000b00f0f0000007f00000000000000000000000000000000000002a9,
  0x2aa000000000000000000000000000000000000000000000000000000000000000000000000000000000000000000000000000000000000000000000001000000a5008300830f0f0000007f00000000000000000000000000000000000002aa,
  0x2ab000000000000000000000000000000000000000000000000000000000000000000000000000000000000000000000000000000000000000000000001000000a5008300830f0f0000007f00000000000000000000000000000000000002ab,
  0x2ac0000000000000000000000000000000000000000000000000000000000000000000000000000000000000000000000000000000000000000000000010000005400af00af0f0f0000007f00000000000000000000000000000000000002ac,
  0x2ad0000000000000000000000000000000000000000000000000000000000000000000000000000000000000000000000000000000000000000000000010000005400af00af0f0f0000007f00000000000000000000000000000000000002ad,
  0x2ae000000000000000000000000000000000000000000000000000000000000000000000000000000000000000000000000000000000000000000000001000000970015007e0f0f0000007f00000000000000000000000000000000000002ae,
  0x2af000000000000000000000000000000000000000000000000000000000000000000000000000000000000000000000000000000000000000000000001000000970015007e0f0f0000007f00000000000000000000000000000000000002af,
  0x2b00000000000000000000000000000000000000000000000000000000000000000000000000000000000000000000000000000000000000000000000010000007c006100b50f0f0000007f00000000000000000000000000000000000002b0,
  0x2b10000000000000000000000000000000000000000000000000000000000000000000000000000000000000000000000000000000000000000000000010000007c006100b50f0f0000007f00000000000000000000000000000000000002b1,
  0x2b20000000000000000000000000000000000000000000000000000000000000000000000000000000000000000000000000000000000000000000000010000005b008f00260f0f0000007f00000000000000000000000000000000000002b2,
  0x2b30000000000000000000000000000000000000000000000000000000000000000000000000000000000000000000000000000000000000000000000010000005b008f00260f0f0000007f00000000000000000000000000000000000002b3,
  0x2b4000000000000000000000000000000000000000000000000000000000000000000000000000000000000000000000000000000000000000000000001000000b200b200b20f0f0500007f00000000000000000000000000000000000002b4,
  0x2b5000000000000000000000000000000000000000000000000000000000000000000000000000000000000000000000000000000000000000000000001000000b200b200b20f0f0500007f00000000000000000000000000000000000002b5,
  0x2b60000000000000000000000000000000000000000000000000000000000000000000000000000000000000000000000000000000000000000000000010000005e000800570f0f0000007f00000000000000000000000000000000000002b6,
  0x2b70000000000000000000000000000000000000000000000000000000000000000000000000000000000000000000000000000000000000000000000010000005e000800570f0f0000007f00000000000000000000000000000000000002b7,
  0x2b80000000000000000000000000000000000000000000000000000000000000000000000000000000000000000000000000000000000000000000000010000000500ad00ad0f0f0000001f00000000000000000000000000000000000002b8,
  0x2b90000000000000000000000000000000000000000000000000000000000000000000000000000000000000000000000000000000000000000000000010000004500ad00ad0f0f0000001f00000000000000000000000000000000000002b9,
  0x2ba0000000000000000000000000000000000000000000000000000000000000000000000000000000000000000000000000000000000000000000000010000007500ae00ae0f0f0000001f00000000000000000000000000000000000002ba,
  0x2bb0000000000000000000000000000000000000000000000000000000000000000000000000000000000000000000000000000000000000000000000010000007500ae00ae0f0f0000001f00000000000000000000000000000000000002bb],
  [0x181903000e9420000000000000000000000000000000000000000000000000000000000000000000000000000000000000000000000000000000000000000000000000002100000021000000210021000002bc00000000008500000000000000000000000000001424000000020502ae1020020000000000000000128090000000c386a32e870400eb006400b84901000000b60038003805050032001f000000000000080002731111826e3c41415f02bc,
  0x2bd00000000000000000000000000000000000000000000000000000000000000000000000000000000000000000000000000000000000000000000000100000068005400070f0f0000007f00000000000000000000000000000000000002bd,
  0x2be00000000000000000000000000000000000000000000000000000000000000000000000000000000000000000000000000000000000000000000000100000039003500a70f0f0000007f00000000000000000000000000000000000002be,
  0x2bf00000000000000000000000000000000000000000000000000000000000000000000000000000000000000000000000000000000000000000000000100000005001d001d0f0f050000ff00000000000000000000000000000000000002bf,
  0x444004520040000000000000000000000000000000000000000000000000000000000000000000000000000000000000000000000000000000000000000000000000000000000730000007300000073000002c00000000002c0000000000000000000000000000000004000400020008d5001020000004000000000000010000020008683600000001c001e003c4601000000b7005d009d0e0e0523007f000001270000040001cd0f0f4b372823322d02c0,
  0x2c100000000000000000000000000000000000000000000000000000000000000000000000000000000000000000000000000000000000000000000000204a600b7005d009d0f0f0500007f00000000000000000000000000000000000002c1,
  0x2c200000000000000000000000000000000000000000000000000000000000000000000000000000000000000000000000000000000000000000000000204a700b7005d009d0f0f0500007f00000000000000000000000000000000000002c2,
  0x2c3000000000000000000000000000000000000000000000000000000000000000000000000000000000000000000000000000000000000000000000001000000aa009e009e0f0f0400007f00000000000000000000000000000000000002c3,
  0x2c40000000000000000000000000000000000000000000000000000000000000000000000000000000000000000000000000000000000000000000000010000008b0077001e0f0f0000007f00000000000000000000000000000000000002c4,
  0x2c50000000000000000000000000000000000000000000000000000000000000000000000000000000000000000000000000000000000000000000000010000008b0077001e0f0f0000007f00000000000000000000000000000000000002c5,
  0x2c600000000000000000000000000000000000000000000000000000000000000000000000000000000000000000000000000000000000000000000000404a8000f007700350f0f0000007f00000000000000000000000000000000000002c6,
  0x2c700000000000000000000000000000000000000000000000000000000000000000000000000000000000000000000000000000000000000000000000404ab000f007700350f0f0000007f00000000000000000000000000000000000002c7,
  0x8204242004003800000000000000000000000000000000000000000000000000000000000000000000000000000000000000000000000000000000000000000000000000d7000000000000000000d7000002c80000000002c8000000000000000000000000000000000840001040010c1000700000000000000000000010090009008a8b68000003e30064003d410100000005007300140a010032007f000000000000001001eb0e0e23201c55453702c8,
  0x2c900000000000000000000000000000000000000000000000000000000000000000000000000000000000000000000000000000000000000000000000304ae0005007300140f0f0000007f00000000000000000000000000000000000002c9,
  0x2ca0000000000000000000000000000000000000000000000000000000000000000000000000000000000000000000000000000000000000000000000010000008c009700770f0f0000007f00000000000000000000000000000000000002ca,
  0x2cb0000000000000000000000000000000000000000000000000000000000000000000000000000000000000000000000000000000000000000000000010000008c009700770f0f0000007f00000000000000000000000000000000000002cb,
  0x2cc00000000000000000000000000000000000000000000000000000000000000000000000000000000000000000000000000000000000000000000000204b000bb00bb00bb0f0f050000ff00000000000000000000000000000000000002cc,
  0x2cd000000000000000000000000000000000000000000000000000000000000000000000000000000000000000000000000000000000000000000000001000000ba00ba00ba0f0f050000ff00000000000000000000000000000000000002cd,
  0x2ce00000000000000000000000000000000000000000000000000000000000000000000000000000000000000000000000000000000000000000000000504b100bc00bc00bc0f0f050000ff00000000000000000000000000000000000002ce,
  0x2cf00000000000000000000000000000000000000000000000000000000000000000000000000000000000000000000000000000000000000000000000204b5001d001d001d0f0f050000ff00000000000000000000000000000000000002cf,
  0x2d000000000000000000000000000000000000000000000000000000000000000000000000000000000000000000000000000000000000000000000000204b60000000000000f0f000000ff00000000000000000000000000000000000002d0,
  0x2d10000000000000000000000000000000000000000000000000000000000000000000000000000000000000000000000000000000000000000000000010000000b000b000b0f0f050000ff00000000000000000000000000000000000002d1,
  0x42041501000000000000000000000000000000000000000000000000000000000000000000000000000000000000000000000000000000000000000000000000000000000000000000000001000002d20000000002d2000000000000000000000000000000202016080400002c10000100000001000000004000100200000184d32a0800000f001e00404501000000cb0041004104040332001f000000000000000101cd020b32322a37374402d2,
  0x1042041501000000000000000000000000000000000000000000000000000000000000000000000000000000000000000000000000000000000000000000000000000000000000000000000002000002d30000000002d2000000000000000000000000000000202016080400002c10000100000001000000004000100200000184d32a080000a0004600934501000000cb0041004104040332001f00000000000000020269020b4646344b4b4e02d3,
  0x2d400000000000000000000000000000000000000000000000000000000000000000000000000000000000000000000000000000000000000000000000204b700cb004100410f0f0300001f00000000000000000000000000000000000002d4,
  0x2d500000000000000000000000000000000000000000000000000000000000000000000000000000000000000000000000000000000000000000000000100000016004200420f0f0300001f00000000000000000000000000000000000002d5,
  0x2d600000000000000000000000000000000000000000000000000000000000000000000000000000000000000000000000000000000000000000000000100000016004200420f0f0300001f00000000000000000000000000000000000002d6,
  0x2d700000000000000000000000000000000000000000000000000000000000000000000000000000000000000000000000000000000000000000000000100000016004200420f0f0300001f00000000000000000000000000000000000002d7,
  0x2d8000000000000000000000000000000000000000000000000000000000000000000000000000000000000000000000000000000000000000000000001000000cc004300430f0f0300001f00000000000000000000000000000000000002d8,
  0x2d9000000000000000000000000000000000000000000000000000000000000000000000000000000000000000000000000000000000000000000000001000000cc004300430f0f0300001f00000000000000000000000000000000000002d9,
  0x2da000000000000000000000000000000000000000000000000000000000000000000000000000000000000000000000000000000000000000000000001000000cc004300430f0f0300001f00000000000000000000000000000000000002da,
  0x2db00000000000000000000000000000000000000000000000000000000000000000000000000000000000000000000000000000000000000000000000100000000000000000f0f0000007f00000000000000000000000000000000000002db,
  0x2dc00000000000000000000000000000000000000000000000000000000000000000000000000000000000000000000000000000000000000000000000100000000000000000f0f0000007f00000000000000000000000000000000000002dc,
  0x2dd00000000000000000000000000000000000000000000000000000000000000000000000000000000000000000000000000000000000000000000000100000000000000000f0f0000007f00000000000000000000000000000000000002dd,
  0x2de00000000000000000000000000000000000000000000000000000000000000000000000000000000000000000000000000000000000000000000000100000000000000000f0f0000007f00000000000000000000000000000000000002de,
  0x2df00000000000000000000000000000000000000000000000000000000000000000000000000000000000000000000000000000000000000000000000100000000000000000f0f0000007f00000000000000000000000000000000000002df,
  0x2e000000000000000000000000000000000000000000000000000000000000000000000000000000000000000000000000000000000000000000000000100000044004400440f0f0000007f00000000000000000000000000000000000002e0,
  0x2e1000000000000000000000000000000000000000000000000000000000000000000000000000000000000000000000000000000000000000000000001000000d900d900d90f0f0000007f00000000000000000000000000000000000002e1,
  0x2e20000000000000000000000000000000000000000000000000000000000000000000000000000000000000000000000000000000000000000000000010000001a001a001a0f0f0000007f00000000000000000000000000000000000002e2,
  0x2e300000000000000000000000000000000000000000000000000000000000000000000000000000000000000000000000000000000000000000000000100000000000000000f0f0000007f00000000000000000000000000000000000002e3,
  0x2e400000000000000000000000000000000000000000000000000000000000000000000000000000000000000000000000000000000000000000000000100000000000000000f0f0000007f00000000000000000000000000000000000002e4,
  0x2e500000000000000000000000000000000000000000000000000000000000000000000000000000000000000000000000000000000000000000000000404b80000000000000f0f000000bf00000000000000000000000000000000000002e5,
  0x2e6000000000000000000000000000000000000000000000000000000000000000000000000000000000000000000000000000000000000000000000001000000af001300760f0f0000007f00000000000000000000000000000000000002e6,
  0x2e7000000000000000000000000000000000000000000000000000000000000000000000000000000000000000000000000000000000000000000000001000000af001300760f0f0000007f00000000000000000000000000000000000002e7,
  0x2e800000000000000000000000000000000000000000000000000000000000000000000000000000000000000000000000000000000000000000000000204bb0050004800330f0f0000007f00000000000000000000000000000000000002e8,
  0x2e900000000000000000000000000000000000000000000000000000000000000000000000000000000000000000000000000000000000000000000000304bc0050009200330f0f0000007f00000000000000000000000000000000000002e9,
  0x2ea00000000000000000000000000000000000000000000000000000000000000000000000000000000000000000000000000000000000000000000000204be00d000d000d00f0f0400007f00000000000000000000000000000000000002ea,
  0x2eb00000000000000000000000000000000000000000000000000000000000000000000000000000000000000000000000000000000000000000000000100000090000700c40f0f0000007f00000000000000000000000000000000000002eb,
  0x2ec00000000000000000000000000000000000000000000000000000000000000000000000000000000000000000000000000000000000000000000000100000090000700c40f0f0000007f00000000000000000000000000000000000002ec,
  0x2ed0000000000000000000000000000000000000000000000000000000000000000000000000000000000000000000000000000000000000000000000010000002700c000140f0f0000007f00000000000000000000000000000000000002ed,
  0x2ee0000000000000000000000000000000000000000000000000000000000000000000000000000000000000000000000000000000000000000000000010000002700c000140f0f0000007f00000000000000000000000000000000000002ee,
  0x2ef0000000000000000000000000000000000000000000000000000000000000000000000000000000000000000000000000000000000000000000000010000000b00c700c70f0f0000007f00000000000000000000000000000000000002ef,
  0x2f00000000000000000000000000000000000000000000000000000000000000000000000000000000000000000000000000000000000000000000000010000000b00c700c70f0f0000007f00000000000000000000000000000000000002f0,
  0x2f10000000000000000000000000000000000000000000000000000000000000000000000000000000000000000000000000000000000000000000000010000007e006600660f0f0000007f00000000000000000000000000000000000002f1,
  0x2f20000000000000000000000000000000000000000000000000000000000000000000000000000000000000000000000000000000000000000000000010000007e006600660f0f0000007f00000000000000000000000000000000000002f2,
  0x2f30000000000000000000000000000000000000000000000000000000000000000000000000000000000000000000000000000000000000000000000010000002c001b00230f0f0000007f00000000000000000000000000000000000002f3,
  0x2f40000000000000000000000000000000000000000000000000000000000000000000000000000000000000000000000000000000000000000000000010000002c001b00230f0f0000007f00000000000000000000000000000000000002f4,
  0x2f50000000000000000000000000000000000000000000000000000000000000000000000000000000000000000000000000000000000000000000000010000000c00d400d40f0f0000001f00000000000000000000000000000000000002f5,
  0x2f60000000000000000000000000000000000000000000000000000000000000000000000000000000000000000000000000000000000000000000000010000000c00d400d40f0f000000fe00000000000000000000000000000000000002f6,
  0x2f700000000000000000000000000000000000000000000000000000000000000000000000000000000000000000000000000000000000000000000000100000038006700da0f0f0000007f00000000000000000000000000000000000002f7,
  0x2f80000000000000000000000000000000000000000000000000000000000000000000000000000000000000000000000000000000000000000000000010000007f006700da0f0f0000007f00000000000000000000000000000000000002f8,
  0x2f9000000000000000000000000000000000000000000000000000000000000000000000000000000000000000000000000000000000000000000000001000000af000c00660f0f030000fe00000000000000000000000000000000000002f9,
  0x2fa000000000000000000000000000000000000000000000000000000000000000000000000000000000000000000000000000000000000000000000001000000af000c00660f0f030000fe00000000000000000000000000000000000002fa,
  0x2fb000000000000000000000000000000000000000000000000000000000000000000000000000000000000000000000000000000000000000000000001000000af00d600660f0f030000fe00000000000000000000000000000000000002fb,
  0x2fc0000000000000000000000000000000000000000000000000000000000000000000000000000000000000000000000000000000000000000000000010000001e00cd00a60f0f040000bf00000000000000000000000000000000000002fc,
  0x2fd000000000000000000000000000000000000000000000000000000000000000000000000000000000000000000000000000000000000000000000001000000b4008c00270f0f0500007f00000000000000000000000000000000000002fd,
  0x2fe0000000000000000000000000000000000000000000000000000000000000000000000000000000000000000000000000000000000000000000000010000008000de00de0f0f0500007f00000000000000000000000000000000000002fe,
  0x2ff000000000000000000000000000000000000000000000000000000000000000000000000000000000000000000000000000000000000000000000001000000c100c100c10f0f0000007f00000000000000000000000000000000000002ff,
  0x300000000000000000000000000000000000000000000000000000000000000000000000000000000000000000000000000000000000000000000000001000000c200c200c20f0f0000007f0000000000000000000000000000000000000300,
  0x3010000000000000000000000000000000000000000000000000000000000000000000000000000000000000000000000000000000000000000000000010000000800c300c30f0f0000007f0000000000000000000000000000000000000301,
  0x3020000000000000000000000000000000000000000000000000000000000000000000000000000000000000000000000000000000000000000000000010000000800c300c30f0f0000007f0000000000000000000000000000000000000302,
  0x3030000000000000000000000000000000000000000000000000000000000000000000000000000000000000000000000000000000000000000000000010000006d00d700d70f0f0400007f0000000000000000000000000000000000000303,
  0x30400000000000000000000000000000000000000000000000000000000000000000000000000000000000000000000000000000000000000000000000100000004000400040f0f050000ff0000000000000000000000000000000000000304,
  0x30500000000000000000000000000000000000000000000000000000000000000000000000000000000000000000000000000000000000000000000001204bf00e100e100e10f0f050000ff0000000000000000000000000000000000000305,
  0x30600000000000000000000000000000000000000000000000000000000000000000000000000000000000000000000000000000000000000000000000e04d00000000000000f0f000000ff0000000000000000000000000000000000000306,
  0x30700000000000000000000000000000000000000000000000000000000000000000000000000000000000000000000000000000000000000000000000100000000000000000f0f0000007f0000000000000000000000000000000000000307,
  0x3080000000000000000000000000000000000000000000000000000000000000000000000000000000000000000000000000000000000000000000000010000004b004b004b0f0f0000007f0000000000000000000000000000000000000308,
  0x30900000000000000000000000000000000000000000000000000000000000000000000000000000000000000000000000000000000000000000000000100000005001f00a00f0f0000007f0000000000000000000000000000000000000309,
  0x30a00000000000000000000000000000000000000000000000000000000000000000000000000000000000000000000000000000000000000000000000204dd00d100d100d10f0f0000007f000000000000000000000000000000000000030a,
  0x30b00000000000000000000000000000000000000000000000000000000000000000000000000000000000000000000000000000000000000000000000100000000000000000f0f0000007f000000000000000000000000000000000000030b,
  0x30c0000000000000000000000000000000000000000000000000000000000000000000000000000000000000000000000000000000000000000000000010000000d009d00c90f0f0000007f000000000000000000000000000000000000030c,
  0x30d000000000000000000000000000000000000000000000000000000000000000000000000000000000000000000000000000000000000000000000001000000c800c800c80f0f000000ff000000000000000000000000000000000000030d,
  0x30e0000000000000000000000000000000000000000000000000000000000000000000000000000000000000000000000000000000000000000000000010000008e002b00ab0f0f0500007f000000000000000000000000000000000000030e,
  0x30f0000000000000000000000000000000000000000000000000000000000000000000000000000000000000000000000000000000000000000000000010000008e002b00ab0f0f0500007f000000000000000000000000000000000000030f,
  0x3100000000000000000000000000000000000000000000000000000000000000000000000000000000000000000000000000000000000000000000000010000008e002b00ab0f0f0500007f0000000000000000000000000000000000000310,
  0x3110000000000000000000000000000000000000000000000000000000000000000000000000000000000000000000000000000000000000000000000010000008c00e200e20f0f050000ff0000000000000000000000000000000000000311,
  0x3120000000000000000000000000000000000000000000000000000000000000000000000000000000000000000000000000000000000000000000000010000008c00e300e30f0f050000ff0000000000000000000000000000000000000312,
  0x3130000000000000000000000000000000000000000000000000000000000000000000000000000000000000000000000000000000000000000000000010000008c00e500e50f0f050000ff0000000000000000000000000000000000000313,
  0x3140000000000000000000000000000000000000000000000000000000000000000000000000000000000000000000000000000000000000000000000010000008c00e400e40f0f050000ff0000000000000000000000000000000000000314,
  0x3150000000000000000000000000000000000000000000000000000000000000000000000000000000000000000000000000000000000000000000000010000006d006d006d0f0f050000ff0000000000000000000000000000000000000315,
  0x31600000000000000000000000000000000000000000000000000000000000000000000000000000000000000000000000000000000000000000000000100000005000500050f0f050000ff0000000000000000000000000000000000000316,
  0x317000000000000000000000000000000000000000000000000000000000000000000000000000000000000000000000000000000000000000000000001000000e600e600e60f0f050000ff0000000000000000000000000000000000000317,
  0x318000000000000000000000000000000000000000000000000000000000000000000000000000000000000000000000000000000000000000000000001000000e700e700e70f0f050000ff0000000000000000000000000000000000000318,
  0x319000000000000000000000000000000000000000000000000000000000000000000000000000000000000000000000000000000000000000000000001000000e000e000e00f0f050000ff0000000000000000000000000000000000000319,
  0x31a000000000000000000000000000000000000000000000000000000000000000000000000000000000000000000000000000000000000000000000001000000e000e000e00f0f050000ff000000000000000000000000000000000000031a,
  0x31b000000000000000000000000000000000000000000000000000000000000000000000000000000000000000000000000000000000000000000000001000000e000e000e00f0f050000ff000000000000000000000000000000000000031b,
  0x31c000000000000000000000000000000000000000000000000000000000000000000000000000000000000000000000000000000000000000000000001000000e000e000e00f0f050000ff000000000000000000000000000000000000031c,
  0x31d000000000000000000000000000000000000000000000000000000000000000000000000000000000000000000000000000000000000000000000001000000e000e000e00f0f050000ff000000000000000000000000000000000000031d,
  0x31e000000000000000000000000000000000000000000000000000000000000000000000000000000000000000000000000000000000000000000000001000000e000e000e00f0f050000ff000000000000000000000000000000000000031e,
  0x31f000000000000000000000000000000000000000000000000000000000000000000000000000000000000000000000000000000000000000000000001000000e000e000e00f0f050000ff000000000000000000000000000000000000031f],
  [0x32000000000000000000000000000000000000000000000000000000000000000000000000000000000000000000000000000000000000000000000000404de00e800e800e80f0f050000ff0000000000000000000000000000000000000320,
  0x32100000000000000000000000000000000000000000000000000000000000000000000000000000000000000000000000000000000000000000000000204e100dc00dc00dc0f0f050000ff0000000000000000000000000000000000000321,
  0x32200000000000000000000000000000000000000000000000000000000000000000000000000000000000000000000000000000000000000000000000100000065006500650f0f050000ff0000000000000000000000000000000000000322,
  0x323000000000000000000000000000000000000000000000000000000000000000000000000000000000000000000000000000000000000000000000001000000e000e000e00f0f050000ff0000000000000000000000000000000000000323,
  0x324000000000000000000000000000000000000000000000000000000000000000000000000000000000000000000000000000000000000000000000001000000e000e000e00f0f050000ff0000000000000000000000000000000000000324,
  0x325000000000000000000000000000000000000000000000000000000000000000000000000000000000000000000000000000000000000000000000001000000e000e000e00f0f050000ff0000000000000000000000000000000000000325,
  0x326000000000000000000000000000000000000000000000000000000000000000000000000000000000000000000000000000000000000000000000001000000e000e000e00f0f050000ff0000000000000000000000000000000000000326,
  0x3270000000000000000000000000000000000000000000000000000000000000000000000000000000000000000000000000000000000000000000000010000000a000a000a0f0f050000ff0000000000000000000000000000000000000327,
  0x3280000000000000000000000000000000000000000000000000000000000000000000000000000000000000000000000000000000000000000000000010000002a002a002a0f0f050000ff0000000000000000000000000000000000000328,
  0x32900000000000000000000000000000000000000000000000000000000000000000000000000000000000000000000000000000000000000000000000100000059005900590f0f050000ff0000000000000000000000000000000000000329,
  0x32a000000000000000000000000000000000000000000000000000000000000000000000000000000000000000000000000000000000000000000000001000000e5004100410f0f0300001f000000000000000000000000000000000000032a,
  0x32b000000000000000000000000000000000000000000000000000000000000000000000000000000000000000000000000000000000000000000000001000000e5004100410f0f0300001f000000000000000000000000000000000000032b,
  0x32c000000000000000000000000000000000000000000000000000000000000000000000000000000000000000000000000000000000000000000000001000000e5004100410f0f0300001f000000000000000000000000000000000000032c,
  0x32d000000000000000000000000000000000000000000000000000000000000000000000000000000000000000000000000000000000000000000000001000000ec004200420f0f0300001f000000000000000000000000000000000000032d,
  0x32e000000000000000000000000000000000000000000000000000000000000000000000000000000000000000000000000000000000000000000000001000000ec004200420f0f0300001f000000000000000000000000000000000000032e,
  0x32f000000000000000000000000000000000000000000000000000000000000000000000000000000000000000000000000000000000000000000000001000000ec004200420f0f0300001f000000000000000000000000000000000000032f,
  0x33000000000000000000000000000000000000000000000000000000000000000000000000000000000000000000000000000000000000000000000000100000061004300430f0f0300001f0000000000000000000000000000000000000330,
  0x33100000000000000000000000000000000000000000000000000000000000000000000000000000000000000000000000000000000000000000000000100000061004300430f0f0300001f0000000000000000000000000000000000000331,
  0x33200000000000000000000000000000000000000000000000000000000000000000000000000000000000000000000000000000000000000000000000100000061004300430f0f0300001f0000000000000000000000000000000000000332,
  0x3330000000000000000000000000000000000000000000000000000000000000000000000000000000000000000000000000000000000000000000000010000005200a700a70f0f0000007f0000000000000000000000000000000000000333,
  0x3340000000000000000000000000000000000000000000000000000000000000000000000000000000000000000000000000000000000000000000000010000005200a700a70f0f0000007f0000000000000000000000000000000000000334,
  0x33500000000000000000000000000000000000000000000000000000000000000000000000000000000000000000000000000000000000000000000000100000091007f00330f0f0300007f0000000000000000000000000000000000000335,
  0x33600000000000000000000000000000000000000000000000000000000000000000000000000000000000000000000000000000000000000000000000100000091007f00330f0f0300007f0000000000000000000000000000000000000336,
  0x337000000000000000000000000000000000000000000000000000000000000000000000000000000000000000000000000000000000000000000000001000000f0007f002e0f0f0300007f0000000000000000000000000000000000000337,
  0x3380000000000000000000000000000000000000000000000000000000000000000000000000000000000000000000000000000000000000000000000010000008c000e00440f0f0000007f0000000000000000000000000000000000000338,
  0x3390000000000000000000000000000000000000000000000000000000000000000000000000000000000000000000000000000000000000000000000010000008c000e00440f0f0000007f0000000000000000000000000000000000000339,
  0x33a0000000000000000000000000000000000000000000000000000000000000000000000000000000000000000000000000000000000000000000000010000008c007700440f0f0000007f000000000000000000000000000000000000033a,
  0x33b000000000000000000000000000000000000000000000000000000000000000000000000000000000000000000000000000000000000000000000001000000c6005400320f0f0400007f000000000000000000000000000000000000033b,
  0x33c000000000000000000000000000000000000000000000000000000000000000000000000000000000000000000000000000000000000000000000001000000c6005400320f0f0400007f000000000000000000000000000000000000033c,
  0x33d0000000000000000000000000000000000000000000000000000000000000000000000000000000000000000000000000000000000000000000000010000001b009000ee0f0f0000007f000000000000000000000000000000000000033d,
  0x33e0000000000000000000000000000000000000000000000000000000000000000000000000000000000000000000000000000000000000000000000010000001b009000ee0f0f0000007f000000000000000000000000000000000000033e,
  0x33f000000000000000000000000000000000000000000000000000000000000000000000000000000000000000000000000000000000000000000000001000000ab003200da0f0f0000007f000000000000000000000000000000000000033f,
  0x340000000000000000000000000000000000000000000000000000000000000000000000000000000000000000000000000000000000000000000000001000000ab005000da0f0f0000007f0000000000000000000000000000000000000340,
  0x34100000000000000000000000000000000000000000000000000000000000000000000000000000000000000000000000000000000000000000000000100000021004b00ad0f0f0000007f0000000000000000000000000000000000000341,
  0x34200000000000000000000000000000000000000000000000000000000000000000000000000000000000000000000000000000000000000000000000100000021004b00ad0f0f0000007f0000000000000000000000000000000000000342,
  0x3430000000000000000000000000000000000000000000000000000000000000000000000000000000000000000000000000000000000000000000000010000009b00ed00ed0f0f0400007f0000000000000000000000000000000000000343,
  0x344000000000000000000000000000000000000000000000000000000000000000000000000000000000000000000000000000000000000000000000001000000ac00ad00ad0f0f0400007f0000000000000000000000000000000000000344,
  0x34500000000000000000000000000000000000000000000000000000000000000000000000000000000000000000000000000000000000000000000000100000012005500f30f0f0300007f0000000000000000000000000000000000000345,
  0x34600000000000000000000000000000000000000000000000000000000000000000000000000000000000000000000000000000000000000000000000100000012003100f30f0f0300007f0000000000000000000000000000000000000346,
  0x34700000000000000000000000000000000000000000000000000000000000000000000000000000000000000000000000000000000000000000000000100000012003100f30f0f0300007f0000000000000000000000000000000000000347,
  0x348000000000000000000000000000000000000000000000000000000000000000000000000000000000000000000000000000000000000000000000001000000ab005200f70f0f0100007f0000000000000000000000000000000000000348,
  0x34900000000000000000000000000000000000000000000000000000000000000000000000000000000000000000000000000000000000000000000000100000037005200f70f0f0100007f0000000000000000000000000000000000000349,
  0x34a0000000000000000000000000000000000000000000000000000000000000000000000000000000000000000000000000000000000000000000000010000002f005200f70f0f0100007f000000000000000000000000000000000000034a,
  0x34b00000000000000000000000000000000000000000000000000000000000000000000000000000000000000000000000000000000000000000000000100000008003d00f50f0f0000007f000000000000000000000000000000000000034b,
  0x34c00000000000000000000000000000000000000000000000000000000000000000000000000000000000000000000000000000000000000000000000100000008003d00f50f0f0000007f000000000000000000000000000000000000034c,
  0x34d00000000000000000000000000000000000000000000000000000000000000000000000000000000000000000000000000000000000000000000000304e200f100f100f10f0f0000007f000000000000000000000000000000000000034d,
  0x34e000000000000000000000000000000000000000000000000000000000000000000000000000000000000000000000000000000000000000000000001000000ef002100210f0f0500007f000000000000000000000000000000000000034e,
  0x34f000000000000000000000000000000000000000000000000000000000000000000000000000000000000000000000000000000000000000000000001000000ef002100210f0f0500007f000000000000000000000000000000000000034f,
  0x350000000000000000000000000000000000000000000000000000000000000000000000000000000000000000000000000000000000000000000000001000000670009009b0f0f0300007f0000000000000000000000000000000000000350,
  0x35100000000000000000000000000000000000000000000000000000000000000000000000000000000000000000000000000000000000000000000000204e40065003900f40f0f0300007f0000000000000000000000000000000000000351,
  0x35200000000000000000000000000000000000000000000000000000000000000000000000000000000000000000000000000000000000000000000000100000031004900120f0f0000007f0000000000000000000000000000000000000352,
  0x35300000000000000000000000000000000000000000000000000000000000000000000000000000000000000000000000000000000000000000000000100000031004900120f0f0000007f0000000000000000000000000000000000000353,
  0x35400000000000000000000000000000000000000000000000000000000000000000000000000000000000000000000000000000000000000000000000100000065000700070f0f0300007f0000000000000000000000000000000000000354,
  0x35500000000000000000000000000000000000000000000000000000000000000000000000000000000000000000000000000000000000000000000000100000065000700070f0f0300007f0000000000000000000000000000000000000355,
  0x35600000000000000000000000000000000000000000000000000000000000000000000000000000000000000000000000000000000000000000000000204e50082008500850f0f000000ff0000000000000000000000000000000000000356,
  0x35700000000000000000000000000000000000000000000000000000000000000000000000000000000000000000000000000000000000000000000000204e60082008500850f0f000000ff0000000000000000000000000000000000000357,
  0x3580000000000000000000000000000000000000000000000000000000000000000000000000000000000000000000000000000000000000000000000010000009c006b00830f0f050000fe0000000000000000000000000000000000000358,
  0x3590000000000000000000000000000000000000000000000000000000000000000000000000000000000000000000000000000000000000000000000010000009c006b00830f0f050000fe0000000000000000000000000000000000000359,
  0x35a0000000000000000000000000000000000000000000000000000000000000000000000000000000000000000000000000000000000000000000000010000009c006b00830f0f050000fe000000000000000000000000000000000000035a,
  0x35b0000000000000000000000000000000000000000000000000000000000000000000000000000000000000000000000000000000000000000000000010000007c0077009e0f0f00000000000000000000000000000000000000000000035b,
  0x35c0000000000000000000000000000000000000000000000000000000000000000000000000000000000000000000000000000000000000000000000010000007c0077009e0f0f00000000000000000000000000000000000000000000035c,
  0x35d0000000000000000000000000000000000000000000000000000000000000000000000000000000000000000000000000000000000000000000000010000007c0077009e0f0f00000000000000000000000000000000000000000000035d,
  0x35e00000000000000000000000000000000000000000000000000000000000000000000000000000000000000000000000000000000000000000000000100000080003e00780f0f0000007f000000000000000000000000000000000000035e,
  0x35f000000000000000000000000000000000000000000000000000000000000000000000000000000000000000000000000000000000000000000000001000000fc00b500040f0f0000007f000000000000000000000000000000000000035f,
  0x360000000000000000000000000000000000000000000000000000000000000000000000000000000000000000000000000000000000000000000000001000000fd008500850f0f040000bf0000000000000000000000000000000000000360,
  0x36100000000000000000000000000000000000000000000000000000000000000000000000000000000000000000000000000000000000000000000000100000071005000500f0f0000007f0000000000000000000000000000000000000361,
  0x3620000000000000000000000000000000000000000000000000000000000000000000000000000000000000000000000000000000000000000000000010000007300fb004d0f0f0000007f0000000000000000000000000000000000000362,
  0x363000000000000000000000000000000000000000000000000000000000000000000000000000000000000000000000000000000000000000000000001000000fe00fe00fe0f0f0000007f0000000000000000000000000000000000000363,
  0x364000000000000000000000000000000000000000000000000000000000000000000000000000000000000000000000000000000000000000000000001000000a500af00af0f0f000000fe0000000000000000000000000000000000000364,
  0x36500000000000000000000000000000000000000000000000000000000000000000000000000000000000000000000000000000000000000000000000904e700a500af00af0f0f000000fe0000000000000000000000000000000000000365,
  0x36600000000000000000000000000000000000000000000000000000000000000000000000000000000000000000000000000000000000000000000000100000080000400040f0f000000ff0000000000000000000000000000000000000366,
  0x367000000000000000000000000000000000000000000000000000000000000000000000000000000000000000000000000000000000000000000000001000000e2001f001f0f0f0000007f0000000000000000000000000000000000000367,
  0x368000000000000000000000000000000000000000000000000000000000000000000000000000000000000000000000000000000000000000000000001000000f6001300130f0f0000007f0000000000000000000000000000000000000368,
  0x369000000000000000000000000000000000000000000000000000000000000000000000000000000000000000000000000000000000000000000000001000000f6001300130f0f0000007f0000000000000000000000000000000000000369,
  0x36a000000000000000000000000000000000000000000000000000000000000000000000000000000000000000000000000000000000000000000000001000000f900f900f90f0f0500007f000000000000000000000000000000000000036a,
  0x36b00000000000000000000000000000000000000000000000000000000000000000000000000000000000000000000000000000000000000000000000204ef00f800f800f80f0f0500007f000000000000000000000000000000000000036b,
  0x36c00000000000000000000000000000000000000000000000000000000000000000000000000000000000000000000000000000000000000000000000204f000e3001c00270f0f04000000000000000000000000000000000000000000036c,
  0x36d00000000000000000000000000000000000000000000000000000000000000000000000000000000000000000000000000000000000000000000000204f10102010201020f0f0000007f000000000000000000000000000000000000036d,
  0x36e00000000000000000000000000000000000000000000000000000000000000000000000000000000000000000000000000000000000000000000000100000086007d007d0f0f0000007f000000000000000000000000000000000000036e,
  0x36f00000000000000000000000000000000000000000000000000000000000000000000000000000000000000000000000000000000000000000000000100000086007d007d0f0f0000007f000000000000000000000000000000000000036f,
  0x370000000000000000000000000000000000000000000000000000000000000000000000000000000000000000000000000000000000000000000000001000000920037000a0f0f050000ff0000000000000000000000000000000000000370,
  0x371000000000000000000000000000000000000000000000000000000000000000000000000000000000000000000000000000000000000000000000001000000ca0009000a0f0f050000ff0000000000000000000000000000000000000371,
  0x3720000000000000000000000000000000000000000000000000000000000000000000000000000000000000000000000000000000000000000000000010000009200ad000b0f0f050000ff0000000000000000000000000000000000000372,
  0x373000000000000000000000000000000000000000000000000000000000000000000000000000000000000000000000000000000000000000000000001000000ca0073000b0f0f050000ff0000000000000000000000000000000000000373,
  0x374000000000000000000000000000000000000000000000000000000000000000000000000000000000000000000000000000000000000000000000001000000f2008600870f0f0000007f0000000000000000000000000000000000000374,
  0x375000000000000000000000000000000000000000000000000000000000000000000000000000000000000000000000000000000000000000000000001000000820097001d0f0f0500007f0000000000000000000000000000000000000375,
  0x376000000000000000000000000000000000000000000000000000000000000000000000000000000000000000000000000000000000000000000000001000000820097001d0f0f0500007f0000000000000000000000000000000000000376,
  0x377000000000000000000000000000000000000000000000000000000000000000000000000000000000000000000000000000000000000000000000001000000820097001d0f0f0500007f0000000000000000000000000000000000000377,
  0x37800000000000000000000000000000000000000000000000000000000000000000000000000000000000000000000000000000000000000000000000204f200ea00ea00ea0f0f050000ff0000000000000000000000000000000000000378,
  0x37900000000000000000000000000000000000000000000000000000000000000000000000000000000000000000000000000000000000000000000000204f300eb00eb00eb0f0f050000ff0000000000000000000000000000000000000379,
  0x37a00000000000000000000000000000000000000000000000000000000000000000000000000000000000000000000000000000000000000000000000204f4002e002e002e0f0f050000ff000000000000000000000000000000000000037a,
  0x37b00000000000000000000000000000000000000000000000000000000000000000000000000000000000000000000000000000000000000000000000100000027002700270f0f0500001f000000000000000000000000000000000000037b,
  0x37c00000000000000000000000000000000000000000000000000000000000000000000000000000000000000000000000000000000000000000000000204f50104010401040f0f0500001f000000000000000000000000000000000000037c,
  0x37d00000000000000000000000000000000000000000000000000000000000000000000000000000000000000000000000000000000000000000000000204f60066006600660f0f050000ff000000000000000000000000000000000000037d,
  0x37e00000000000000000000000000000000000000000000000000000000000000000000000000000000000000000000000000000000000000000000000100000106010601060f0f050000ff000000000000000000000000000000000000037e,
  0x37f00000000000000000000000000000000000000000000000000000000000000000000000000000000000000000000000000000000000000000000000100000107010701070f0f050000ff000000000000000000000000000000000000037f,
  0x38000000000000000000000000000000000000000000000000000000000000000000000000000000000000000000000000000000000000000000000000100000108010801080f0f050000ff0000000000000000000000000000000000000380,
  0x38100000000000000000000000000000000000000000000000000000000000000000000000000000000000000000000000000000000000000000000000100000109010901090f0f050000ff0000000000000000000000000000000000000381,
  0x38200000000000000000000000000000000000000000000000000000000000000000000000000000000000000000000000000000000000000000000000304f7007f007f007f0f0f050000ff0000000000000000000000000000000000000382,
  0x151d11904060480000000000000000000000000000000000000000000000000000000000000000000000000000000000000000000000000000000000000000000000000003200320032000000320032000003830000000000ea0000000000000000000000000000806000220002010a9e100f020000000000000000000291400010108683a64a0003b700b400b847010000009d0077001605050532007f000000000000000402870d004b69414869670383],
  [0x1210003206a7210000000000000000000000000000000000000000000000000000000000000000000000000000000000000000000000000000000000000000000000000000004900000000004900490000038400000000007b000000000000000000000000000000000440300040802c3030010000008000000002c00056200d020987c3aa0300037a00b400af450204f90050007d004403030032007f000000000000000802730506462d555f87460384,
  0x1a9080607d85a0000000000000000000000000000000000000000000000000000000000000000000000000000000000000000000000000000000000000000000000000000000720000007200000072000003850000000000d8000000000000000000000000000084200a01082104a90c1064830000000000000004000290030a018986a7e0833b0b5400f000c145010000007f00ab003e05050032007f000000000000000c024b0004502d32698c820385,
  0x19031240406240800000000000000000000000000000000000000000000000000000000000000000000000000000000000000000000000000000000000000000000000000a700a700a70000000000a700000386000000020226000000000000000000000000000600100020000020a90c31103800000000000000000000100804b0259a8f200000044c012c00ba430204fa0068005b009b0c0c0032000000000000000000020287070a4b504e4170780386,
  0x1013015187c52100000000000000000000000000000000000000000000000000000000000000000000000000000000000000000000000000000000000000000000000000cb00cb00000000000000cb000003870000000100d7000000000000000000000000000080020011160200228c1010f10000000000000000402098230e088dbe8ba5831301ae008200b347010000008f002e002e05050323007f000000d900000044028703015028783c82500387,
  0x290316401040450000000000000000000000000000000000000000000000000000000000000000000000000000000000000000000000000000000000000000000000000000000000055000000000055000003880000000100d3000000000000000000000000000488104000025000220cf100790000000000000000000034000690259a8f304080025d00fa0066440100000016002100260c0c0032007f000000f500000004018703104141555f73550388,
  0x11818c20406402000000000000000000000000000000000000000000000000000000000000000000000000000000000000000000000000000000000000000000000000000000000000000ea000000ea00000389000000000389000000000000000000000000000000007809000300808d500c030000000000000002000210000b2358818770834001e000a00122450204fb007e008300830f0f055a00fe00000000000003000303021150876a46734a0389,
  0x1000300000000000000000000000000000000000000000000000000000000000000000000000000000000000000000000000000000000000000000000000200000022004100410f0f0300001f000000000000000000000000000000000000038a,
  0x100060000000000000000000000000000000000000000000000000000000000000000000000000000000000000000000000000000000000000000000000030000005e004200420f0f0300001f000000000000000000000000000000000000038b,
  0x200060000000000000000000000000000000000000000000000000000000000000000000000000000000000000000000000000000000000000000000000030000005e004200420f0f0300001f000000000000000000000000000000000000038c,
  0x100090000000000000000000000000000000000000000000000000000000000000000000000000000000000000000000000000000000000000000000000020000002c004300430f0f0300001f000000000000000000000000000000000000038d,
  0x1000f00000000000000000000000000000000000000000000000000000000000000000000000000000000000000000000000000000000000000000000000200000000000000000f0f0000007f000000000000000000000000000000000000038e,
  0x1001200000000000000000000000000000000000000000000000000000000000000000000000000000000000000000000000000000000000000000000000200000000000000000f0f0000007f000000000000000000000000000000000000038f,
  0x1001300000000000000000000000000000000000000000000000000000000000000000000000000000000000000000000000000000000000000000000000200000000000000000f0f0000007f0000000000000000000000000000000000000390,
  0x1001400000000000000000000000000000000000000000000000000000000000000000000000000000000000000000000000000000000000000000000000200000000000000000f0f0000007f0000000000000000000000000000000000000391,
  0x1001900000000000000000000000000000000000000000000000000000000000000000000000000000000000000000000000000000000000000000000000a0000001f000900090f0f000000000000000000000000000000000000000000000392,
  0x2001900000000000000000000000000000000000000000000000000000000000000000000000000000000000000000000000000000000000000000000000a0000001f000900090f0f000000000000000000000000000000000000000000000393,
  0x3001900000000000000000000000000000000000000000000000000000000000000000000000000000000000000000000000000000000000000000000000a0000001f000900090f0f000000000000000000000000000000000000000000000394,
  0x4001900000000000000000000000000000000000000000000000000000000000000000000000000000000000000000000000000000000000000000000000a0000001f000900090f0f000000000000000000000000000000000000000000000395,
  0x5001900000000000000000000000000000000000000000000000000000000000000000000000000000000000000000000000000000000000000000000000a0000001f000900090f0f000000000000000000000000000000000000000000000396,
  0x6001900000000000000000000000000000000000000000000000000000000000000000000000000000000000000000000000000000000000000000000000a0000001f000900090f0f000000000000000000000000000000000000000000000397,
  0x7001900000000000000000000000000000000000000000000000000000000000000000000000000000000000000000000000000000000000000000000000a0000001f000900090f0f000000000000000000000000000000000000000000000398,
  0x8001900000000000000000000000000000000000000000000000000000000000000000000000000000000000000000000000000000000000000000000000a00000000000000000f0f000000ff0000000000000000000000000000000000000399,
  0x9001900000000000000000000000000000000000000000000000000000000000000000000000000000000000000000000000000000000000000000000000a0000001f000900090f0f00000000000000000000000000000000000000000000039a,
  0x1001a000000000000000000000000000000000000000000000000000000000000000000000000000000000000000000000000000000000000000000000002000000cf00cf00cf0f0f0000007f000000000000000000000000000000000000039b,
  0x1001b000000000000000000000000000000000000000000000000000000000000000000000000000000000000000000000000000000000000000000000002000000ca005100510f0f0000007f000000000000000000000000000000000000039c,
  0x1001c000000000000000000000000000000000000000000000000000000000000000000000000000000000000000000000000000000000000000000000002000000ca005100510f0f0000007f000000000000000000000000000000000000039d,
  0x2800831040c04080000000000000000000000000000000000000000000000000000000000000000000000000000000000000000000000000000000000000000000000000000000000a80000000000a80001002500000000002500000000000000000000000000000002002004000000cc1010620000000000000000009030001200518aab2880000063003c003c480200000075005100510505003200bf000002890000004001eb0e0e413241282926039e,
  0x2901831040e04080000000000000000000000000000000000000000000000000000000000000000000000000000000000000000000000000000000000000000000000000000000000a90000000000a90001002600000000002500000000000000000000000000001006003004020000ce1010620000000000000000029030811200d18aab288b0000c7006e00b1410200000075005100510505003200bf00000289000000800287110e64516d4b4349039f,
  0x100320000000000000000000000000000000000000000000000000000000000000000000000000000000000000000000000000000000000000000000000020000009f00dd00080f0f0000007f00000000000000000000000000000000000003a0,
  0x100330000000000000000000000000000000000000000000000000000000000000000000000000000000000000000000000000000000000000000000000020000009f00dd00080f0f0000007f00000000000000000000000000000000000003a1,
  0x100340000000000000000000000000000000000000000000000000000000000000000000000000000000000000000000000000000000000000000000000030000009b006500350f0f0000007f00000000000000000000000000000000000003a2,
  0x200340000000000000000000000000000000000000000000000000000000000000000000000000000000000000000000000000000000000000000000000030000007f00b500350f0f0000007f00000000000000000000000000000000000003a3,
  0x100350000000000000000000000000000000000000000000000000000000000000000000000000000000000000000000000000000000000000000000000020000009b006500a90f0f0000007f00000000000000000000000000000000000003a4,
  0x2c4201200405220000000000000000000000000000000000000000000000000000000000000000000000000000000000000000000000000000000000000000000000000000000000960000000000960001003a00000001003a00000000000000000000000000020440000000a008118d309006000000000000000000209010000003c483a8a00000e30050004645020000009a0012001605050532003f000000000000000401eb05093241372d4b3c03a5,
  0x3e5201a00405a60000000000000000000000000000000000000000000000000000000000000000000000000000000000000000000000000000000000000000000000000000000000970000000000970001003b00000001003a00000000000000000000000000020440040040a00c118d309006000000000000000000229014000003c487a8ab00069000c800c245030000009a0012001605050532003f000000000000000802870509505f5a50735f03a6,
  0x3e5201a00405a60000000000000000000000000000000000000000000000000000000000000000000000000000000000000000000000000000000000000000000000000000000000970000000000970002003b00000001003a00000000000000000000000000020440040040a00c118d309006000000000000000000229014000003c487a8ab00060e00be00c245030000009a0012001605050532003f000000000000000802870509505f5a50735f03a7,
  0x10041000000000000000000000000000000000000000000000000000000000000000000000000000000000000000000000000000000000000000000000002000000620027001c0f0f0300003f00000000000000000000000000000000000003a8,
  0x1004a00000000000000000000000000000000000000000000000000000000000000000000000000000000000000000000000000000000000000000000000200000000000000000f0f0000007f00000000000000000000000000000000000003a9,
  0x1004b00000000000000000000000000000000000000000000000000000000000000000000000000000000000000000000000000000000000000000000000200000000000000000f0f0000007f00000000000000000000000000000000000003aa,
  0x1004c00000000000000000000000000000000000000000000000000000000000000000000000000000000000000000000000000000000000000000000000200000000000000000f0f0000007f00000000000000000000000000000000000003ab,
  0x1004d0000000000000000000000000000000000000000000000000000000000000000000000000000000000000000000000000000000000000000000000020000006b010100320f0f0000007f00000000000000000000000000000000000003ac,
  0x1004e0000000000000000000000000000000000000000000000000000000000000000000000000000000000000000000000000000000000000000000000020000006b010100320f0f0000007f00000000000000000000000000000000000003ad,
  0x1004f00000000000000000000000000000000000000000000000000000000000000000000000000000000000000000000000000000000000000000000000200000090001400520f0f0000007f00000000000000000000000000000000000003ae,
  0x1005000000000000000000000000000000000000000000000000000000000000000000000000000000000000000000000000000000000000000000000000300000000000000000f0f000000ff00000000000000000000000000000000000003af,
  0x2005000000000000000000000000000000000000000000000000000000000000000000000000000000000000000000000000000000000000000000000000300000090001401030f0f0000007f00000000000000000000000000000000000003b0,
  0x1005300000000000000000000000000000000000000000000000000000000000000000000000000000000000000000000000000000000000000000000000200000071005000500f0f0000007f00000000000000000000000000000000000003b1,
  0x1005800000000000000000000000000000000000000000000000000000000000000000000000000000000000000000000000000000000000000000000000200000000000000000f0f0000007f00000000000000000000000000000000000003b2,
  0x1005900000000000000000000000000000000000000000000000000000000000000000000000000000000000000000000000000000000000000000000000200000000000000000f0f0000007f00000000000000000000000000000000000003b3,
  0x1005e00000000000000000000000000000000000000000000000000000000000000000000000000000000000000000000000000000000000000000000000200000082008200820f0f0300007f00000000000000000000000000000000000003b4,
  0x40401800041410000000000000000000000000000000000000000000000000000000000000000000000000000000000000000000000000000000000000000000000000000000c000000000000000c000010064000000010064000000000000000000000000000000430000001000200c1013000000000000000000200110000400008203b3400000820032004240020000006a0009002b0a0a003200ff000000000000004001eb0b0c373764321e2803b5,
  0x50501800041410000000000000000000000000000000000000000000000000000000000000000000000000000000000000000000000000000000000000000000000000000000c100000000000000c100010065000000010064000000000000000000000000000000430000001000200c1013000000000000000000200110000400008203b3430002c6007800ac40030000006a0009002b0a0a003200ff000000000000008002870b0c50509646323c03b6,
  0x50501800041410000000000000000000000000000000000000000000000000000000000000000000000000000000000000000000000000000000000000000000000000000000c100000000000000c100020065000000010064000000000000000000000000000000430000001000200c1013000000000000000000200110000400008203b34300029a007800ac40030000006a0009002b0a0a003200ff000000000000008002870b0c50509646323c03b7,
  0x100670000000000000000000000000000000000000000000000000000000000000000000000000000000000000000000000000000000000000000000000020000008b007700770f0f0500007f00000000000000000000000000000000000003b8,
  0x1006900000000000000000000000000000000000000000000000000000000000000000000000000000000000000000000000000000000000000000000000200000045001f00820f0f0000007f00000000000000000000000000000000000003b9,
  0x1006e000000000000000000000000000000000000000000000000000000000000000000000000000000000000000000000000000000000000000000000002000000e40100001a0f0f0000007f00000000000000000000000000000000000003ba,
  0x1007300000000000000000000000000000000000000000000000000000000000000000000000000000000000000000000000000000000000000000000000200000027007100300f0f000000fe00000000000000000000000000000000000003bb,
  0x1007a0000000000000000000000000000000000000000000000000000000000000000000000000000000000000000000000000000000000000000000000020000007300fb00480f0f0000007f00000000000000000000000000000000000003bc,
  0x1007f00000000000000000000000000000000000000000000000000000000000000000000000000000000000000000000000000000000000000000000000200000099006800340f0f0500007f00000000000000000000000000000000000003bd,
  0x1008200000000000000000000000000000000000000000000000000000000000000000000000000000000000000000000000000000000000000000000000200000099001600160f0f0500007f00000000000000000000000000000000000003be,
  0x100850000000000000000000000000000000000000000000000000000000000000000000000000000000000000000000000000000000000000000000000020000006b005b00320f0f0000001f00000000000000000000000000000000000003bf,
  0x1008e0000000000000000000000000000000000000000000000000000000000000000000000000000000000000000000000000000000000000000000000020000007f002e00450f0f0500001f00000000000000000000000000000000000003c0,
  0x10090000000000000000000000000000000000000000000000000000000000000000000000000000000000000000000000000000000000000000000000002000000ac00ac00ac0f0f050000ff00000000000000000000000000000000000003c1,
  0x1009100000000000000000000000000000000000000000000000000000000000000000000000000000000000000000000000000000000000000000000000200000080008000800f0f050000ff00000000000000000000000000000000000003c2,
  0x10092000000000000000000000000000000000000000000000000000000000000000000000000000000000000000000000000000000000000000000000002000000c900c900c90f0f050000ff00000000000000000000000000000000000003c3,
  0x100960000000000000000000000000000000000000000000000000000000000000000000000000000000000000000000000000000000000000000000000030000007f002e002e0f0f050000ff00000000000000000000000000000000000003c4,
  0x200960000000000000000000000000000000000000000000000000000000000000000000000000000000000000000000000000000000000000000000000030000007f002e002e0f0f050000ff00000000000000000000000000000000000003c5,
  0x30510360b625a00000000000000000000000000000000000000000000000000000000000000000000000000000000000000000000000000000000000000000000000000000000000000000000000060001009d00000000009b000000000000000000000000000080600001009008100c308484000000120000000410021002080109c483608b2b02ba00a0010b4202000000120042004205050332001f00000000000003000337070955775f4e544903c6,
  0x100b500000000000000000000000000000000000000000000000000000000000000000000000000000000000000000000000000000000000000000000000200000000000000000f0f0000007f00000000000000000000000000000000000003c7,
  0x100c700000000000000000000000000000000000000000000000000000000000000000000000000000000000000000000000000000000000000000000000200000090001401050f0f0000007f00000000000000000000000000000000000003c8,
  0x8e000100c90000000100c900000000000000000000000000000000000000000000000000000000000000000000000000000000000000000000003200320076441c0000001a001a001a0f0f003200ff000000000000010402b90d0d30483030483003c9,
  0x8e000200c90000000200c900000000000000000000000000000000000000000000000000000000000000000000000000000000000000000000003200320076441c0000001a001a001a0f0f003200ff000000000000010402b90d0d30483030483003ca,
  0x8e000300c90000000300c900000000000000000000000000000000000000000000000000000000000000000000000000000000000000000000003200320076441c0000001a001a001a0f0f003200ff000000000000010402b90d0d30483030483003cb,
  0x8e000400c90000000400c900000000000000000000000000000000000000000000000000000000000000000000000000000000000000000000003200320076441c0000001a001a001a0f0f003200ff000000000000010402b90d0d30483030483003cc,
  0x8e000500c90000000500c900000000000000000000000000000000000000000000000000000000000000000000000000000000000000000000003200320076441c0000001a001a001a0f0f003200ff000000000000010402b90d0d30483030483003cd,
  0x8e000600c90000000600c900000000000000000000000000000000000000000000000000000000000000000000000000000000000000000000003200320076441c0000001a001a001a0f0f003200ff000000000000010402b90d0d30483030483003ce,
  0x8e000700c90000000700c900000000000000000000000000000000000000000000000000000000000000000000000000000000000000000000003200320076441c0000001a001a001a0f0f003200ff000000000000010402b90d0d30483030483003cf,
  0x8e000800c90000000800c900000000000000000000000000000000000000000000000000000000000000000000000000000000000000000000003200320076441c0000001a001a001a0f0f003200ff000000000000010402b90d0d30483030483003d0,
  0x8e000900c90000000900c900000000000000000000000000000000000000000000000000000000000000000000000000000000000000000000003200320076441c0000001a001a001a0f0f003200ff000000000000010402b90d0d30483030483003d1,
  0x8e000a00c90000000a00c900000000000000000000000000000000000000000000000000000000000000000000000000000000000000000000003200320076441c0000001a001a001a0f0f003200ff000000000000010402b90d0d30483030483003d2,
  0x8e000b00c90000000b00c900000000000000000000000000000000000000000000000000000000000000000000000000000000000000000000003200320076441c0000001a001a001a0f0f003200ff000000000000010402b90d0d30483030483003d3,
  0x8e000c00c90000000c00c900000000000000000000000000000000000000000000000000000000000000000000000000000000000000000000003200320076441c0000001a001a001a0f0f003200ff000000000000010402b90d0d30483030483003d4,
  0x8e000d00c90000000d00c900000000000000000000000000000000000000000000000000000000000000000000000000000000000000000000003200320076441c0000001a001a001a0f0f003200ff000000000000010402b90d0d30483030483003d5,
  0x8e000e00c90000000e00c900000000000000000000000000000000000000000000000000000000000000000000000000000000000000000000003200320076441c0000001a001a001a0f0f003200ff000000000000010402b90d0d30483030483003d6,
  0x8e000f00c90000000f00c900000000000000000000000000000000000000000000000000000000000000000000000000000000000000000000003200320076441c0000001a001a001a0f0f003200ff000000000000010402b90d0d30483030483003d7,
  0x8e001000c90000001000c900000000000000000000000000000000000000000000000000000000000000000000000000000000000000000000003200320076441c0000001a001a001a0f0f003200ff000000000000010402b90d0d30483030483003d8,
  0x8e001100c90000001100c900000000000000000000000000000000000000000000000000000000000000000000000000000000000000000000003200320076441c0000001a001a001a0f0f003200ff000000000000010402b90d0d30483030483003d9,
  0x8e001200c90000001200c900000000000000000000000000000000000000000000000000000000000000000000000000000000000000000000003200320076441c0000001a001a001a0f0f003200ff000000000000010402b90d0d30483030483003da,
  0x8e001300c90000001300c900000000000000000000000000000000000000000000000000000000000000000000000000000000000000000000003200320076441c0000001a001a001a0f0f003200ff000000000000010402b90d0d30483030483003db,
  0x8e001400c90000001400c900000000000000000000000000000000000000000000000000000000000000000000000000000000000000000000003200320076441c0000001a001a001a0f0f003200ff000000000000010402b90d0d30483030483003dc,
  0x8e001500c90000001500c900000000000000000000000000000000000000000000000000000000000000000000000000000000000000000000003200320076441c0000001a001a001a0f0f003200ff000000000000010402b90d0d30483030483003dd,
  0x8e001600c90000001600c900000000000000000000000000000000000000000000000000000000000000000000000000000000000000000000003200320076441c0000001a001a001a0f0f003200ff000000000000010402b90d0d30483030483003de,
  0x8e001700c90000001700c900000000000000000000000000000000000000000000000000000000000000000000000000000000000000000000003200320076441c0000001a001a001a0f0f003200ff000000000000010402b90d0d30483030483003df,
  0x8e001800c90000001800c900000000000000000000000000000000000000000000000000000000000000000000000000000000000000000000003200320076441c0000001a001a001a0f0f003200ff000000000000010402b90d0d30483030483003e0,
  0x8e001900c90000001900c900000000000000000000000000000000000000000000000000000000000000000000000000000000000000000000003200320076441c0000001a001a001a0f0f003200ff000000000000010402b90d0d30483030483003e1,
  0x8e001a00c90000001a00c900000000000000000000000000000000000000000000000000000000000000000000000000000000000000000000003200320076441c0000001a001a001a0f0f003200ff000000000000010402b90d0d30483030483003e2,
  0x8e001b00c90000001b00c900000000000000000000000000000000000000000000000000000000000000000000000000000000000000000000003200320076441c0000001a001a001a0f0f003200ff000000000000010402b90d0d30483030483003e3,
  0x100d00000000000000000000000000000000000000000000000000000000000000000000000000000000000000000000000000000000000000000000000020000007d000500450f0f0000007f00000000000000000000000000000000000003e4,
  0x280216401040450000000000000000000000000000000000000000000000000000000000000000000000000000000000000000000000000000000000000000000000000000000000054000000000054000100d30000000100d3000000000000000000000000000488104000025000220cf100790000000000000000000034000690259a8f304080002700320058470200000016002100260c0c0032007f000000f50000000401eb0310373755555f4103e5,
  0x100d400000000000000000000000000000000000000000000000000000000000000000000000000000000000000000000000000000000000000000000000200000087006500440f0f0000007f00000000000000000000000000000000000003e6,
  0x100d600000000000000000000000000000000000000000000000000000000000000000000000000000000000000000000000000000000000000000000000200000099003e00440f0f0500007f00000000000000000000000000000000000003e7],
  [0x3015187852100000000000000000000000000000000000000000000000000000000000000000000000000000000000000000000000000000000000000000000000000ca00ca00000000000000ca000100d70000000100d7000000000000000000000000000080020000160200228c1010f10000000000000000402098230a0089be8ba58013010e005a005644020000008f0033002705050323007f000000d90000004001eb03014b2373375f3703e8,
  0x100de00000000000000000000000000000000000000000000000000000000000000000000000000000000000000000000000000000000000000000000000200000082008500850f0f040000bf00000000000000000000000000000000000003e9,
  0x100e500000000000000000000000000000000000000000000000000000000000000000000000000000000000000000000000000000000000000000000000200000000000000000f0f0000007f00000000000000000000000000000000000003ea,
  0x100f80000000000000000000000000000000000000000000000000000000000000000000000000000000000000000000000000000000000000000000000020000007f002d002d0f0f0500007f00000000000000000000000000000000000003eb,
  0x100fe00000000000000000000000000000000000000000000000000000000000000000000000000000000000000000000000000000000000000000000000200000054004100410f0f0300001f00000000000000000000000000000000000003ec,
  0x1010100000000000000000000000000000000000000000000000000000000000000000000000000000000000000000000000000000000000000000000000200000003004200420f0f0300001f00000000000000000000000000000000000003ed,
  0x1010400000000000000000000000000000000000000000000000000000000000000000000000000000000000000000000000000000000000000000000000200000006004300430f0f0300001f00000000000000000000000000000000000003ee,
  0x101070000000000000000000000000000000000000000000000000000000000000000000000000000000000000000000000000000000000000000000000020000005f005200350f0f0000007f00000000000000000000000000000000000003ef,
  0x101080000000000000000000000000000000000000000000000000000000000000000000000000000000000000000000000000000000000000000000000020000005f005200350f0f0000007f00000000000000000000000000000000000003f0,
  0x1011a0000000000000000000000000000000000000000000000000000000000000000000000000000000000000000000000000000000000000000000000020000008c0024001c0f0f0500007f00000000000000000000000000000000000003f1,
  0x1012e0000000000000000000000000000000000000000000000000000000000000000000000000000000000000000000000000000000000000000000000020000009e006400330f0f0300007f00000000000000000000000000000000000003f2,
  0x1012f0000000000000000000000000000000000000000000000000000000000000000000000000000000000000000000000000000000000000000000000020000007d001600340f0f0400007f00000000000000000000000000000000000003f3,
  0x1013200000000000000000000000000000000000000000000000000000000000000000000000000000000000000000000000000000000000000000000000200000086004500050f0f0500007f00000000000000000000000000000000000003f4,
  0x1013400000000000000000000000000000000000000000000000000000000000000000000000000000000000000000000000000000000000000000000000200000000000000000f0f0000007f00000000000000000000000000000000000003f5,
  0x101360000000000000000000000000000000000000000000000000000000000000000000000000000000000000000000000000000000000000000000000020000003a001f00090f0f0500007f00000000000000000000000000000000000003f6,
  0x1013f00000000000000000000000000000000000000000000000000000000000000000000000000000000000000000000000000000000000000000000000200000003001800180f0f0500007f00000000000000000000000000000000000003f7,
  0x1014300000000000000000000000000000000000000000000000000000000000000000000000000000000000000000000000000000000000000000000000200000000000000000f0f0000007f00000000000000000000000000000000000003f8,
  0x1014e0000000000000000000000000000000000000000000000000000000000000000000000000000000000000000000000000000000000000000000000020000000d001e001e0f0f0100007f00000000000000000000000000000000000003f9,
  0x1015f00000000000000000000000000000000000000000000000000000000000000000000000000000000000000000000000000000000000000000000000400000000000000000f0f0000007f00000000000000000000000000000000000003fa,
  0x2015f00000000000000000000000000000000000000000000000000000000000000000000000000000000000000000000000000000000000000000000000400000000000000000f0f0000007f00000000000000000000000000000000000003fb,
  0x3015f00000000000000000000000000000000000000000000000000000000000000000000000000000000000000000000000000000000000000000000000400000000000000000f0f0000007f00000000000000000000000000000000000003fc,
  0x1016200000000000000000000000000000000000000000000000000000000000000000000000000000000000000000000000000000000000000000000000200000000000000000f0f0000007f00000000000000000000000000000000000003fd,
  0x101670000000000000000000000000000000000000000000000000000000000000000000000000000000000000000000000000000000000000000000000020000009a0069002e0f0f0300007f00000000000000000000000000000000000003fe,
  0x1016a0000000000000000000000000000000000000000000000000000000000000000000000000000000000000000000000000000000000000000000000020000008d007300270f0f0000007f00000000000000000000000000000000000003ff,
  0x1017500000000000000000000000000000000000000000000000000000000000000000000000000000000000000000000000000000000000000000000000200000099001600160f0f0500007f0000000000000000000000000000000000000400,
  0x1017800000000000000000000000000000000000000000000000000000000000000000000000000000000000000000000000000000000000000000000000200000087001d001d0f0f050000ff0000000000000000000000000000000000000401,
  0x1017c0000000000000000000000000000000000000000000000000000000000000000000000000000000000000000000000000000000000000000000000020000001a001a001a0f0f050000fe0000000000000000000000000000000000000402,
  0x1017d0000000000000000000000000000000000000000000000000000000000000000000000000000000000000000000000000000000000000000000000020000001a001a001a0f0f050000000000000000000000000000000000000000000403,
  0x1017e00000000000000000000000000000000000000000000000000000000000000000000000000000000000000000000000000000000000000000000000200000002000200020f0f050000ff0000000000000000000000000000000000000404,
  0x1017f00000000000000000000000000000000000000000000000000000000000000000000000000000000000000000000000000000000000000000000000200000046004600460f0f050000ff0000000000000000000000000000000000000405,
  0x1018000000000000000000000000000000000000000000000000000000000000000000000000000000000000000000000000000000000000000000000000200000000000000000f0f000000ff0000000000000000000000000000000000000406,
  0x1018200000000000000000000000000000000000000000000000000000000000000000000000000000000000000000000000000000000000000000000000400000000000000000f0f000000ff0000000000000000000000000000000000000407,
  0x2018200000000000000000000000000000000000000000000000000000000000000000000000000000000000000000000000000000000000000000000000400000000000000000f0f000000ff0000000000000000000000000000000000000408,
  0x3018200000000000000000000000000000000000000000000000000000000000000000000000000000000000000000000000000000000000000000000000400000000000000000f0f000000ff0000000000000000000000000000000000000409,
  0x2b002b002b002b002b002b0001019c00000001019c0000000000000000000000000000000000000000000000000000000000000000000000040000000000000000000000220014002d45030000008e003d003d03030032007f000000000000040001eb06062d1d242d1d28040a,
  0x2b002b002b002b002b002b0002019c00000002019c0000000000000000000000000000000000000000000000000000000000000000000000040000000000000000000000220014002d40030000008e003d003d03030032007f000000000000040001eb06062d1d242d1d28040b,
  0x110118000040280000000000000000000000000000000000000000000000000000000000000000000000000000000000000000000000000000000000000000000000000002c002c002c002c002c002c0001019d00000001019c0000000000000000000000000000000010082000010a0c100c000000000000000000000614000041008793a88b0000410032009445030000008e006b006b0303003200fe000000de0000002002870406553b24694f3c040c,
  0x910150080040200000000000000000000000000000000000000000000000000000000000000000000000000000000000000000000000000000000000000000000000000002c002c002c002c002c002c0002019d00000002019c0000000000000000000000000000000016402010410a0c1008000000000000000000000414000000008693a88b0000410032009440030000008e006b006b0303003200fe000000de00000410028708065f45245f453c040d,
  0x110111000042500000000000000000000000000000000000000000000000000000000000000000000000000000000000000000000000000000000000000000000000000002d002d002d002d002d002d0001019e00000001019c000000000000000000000000000000000002200001020c1008000000000000000000800454000100008693a80b0000e9005a009442030000006e00440044030300320000000000de0000010402870206325e42325e46040e,
  0x110111000042500000000000000000000000000000000000000000000000000000000000000000000000000000000000000000000000000000000000000000000000000002d002d002d002d002d002d0002019e00000002019c000000000000000000000000000000000002200001020c1008000000000000000000800454000100008693a80b0000e9005a009442030000006e00440044030300320000000000de0000010402870206325e42325e46040f,
  0x18181000041000000000000000000000000000000000000000000000000000000000000000000000000000000000000000000000000000000000000000000000000000000000430000004300430043000101a50000000001a4000000000000000000000000000114002002080000000c1000010000000000000000018010000004428493281f00005d003200b649020000007a007a007a07060032007f000000ef0000020002870b0b755755465a460410,
  0x8000a400040000000000000000000000000000000000000000000000000000000000000000000000000000000000000000000000000000000000000000000000000000000000000052000000520052000101a60000000101a6000000000000000000000000000000100008000020000c12007a00000000000000000000100000a0209a8b200000003f001e004141020000009f0072003c0b020032007f000000000000000101eb0a0a3e392230304c0411,
  0x9210e4200400a0000000000000000000000000000000000000000000000000000000000000000000000000000000000000000000000000000000000000000000000000000000000053000000530053000101a70000000101a6000000000000000000000000000000104808000020000c53047a00000000000000040002100000a3609b8b608300012b005a00a641020000009f0072003c0b020032007f00000000000000020287040a525c2744536f0412,
  0x101ac00000000000000000000000000000000000000000000000000000000000000000000000000000000000000000000000000000000000000000000000200000007006700380f0f0000007f0000000000000000000000000000000000000413,
  0x101bd00000000000000000000000000000000000000000000000000000000000000000000000000000000000000000000000000000000000000000000000200000018000800080f0f0500007f0000000000000000000000000000000000000414,
  0x101c00000000000000000000000000000000000000000000000000000000000000000000000000000000000000000000000000000000000000000000000020000009a002700500f0f0300001f0000000000000000000000000000000000000415,
  0x101cc0000000000000000000000000000000000000000000000000000000000000000000000000000000000000000000000000000000000000000000000020000002b007500750f0f0500007f0000000000000000000000000000000000000416,
  0x101db0000000000000000000000000000000000000000000000000000000000000000000000000000000000000000000000000000000000000000000000020000009a005000500f0f050000000000000000000000000000000000000000000417,
  0x240010800042400000000000000000000000000000000000000000000000000000000000000000000000000000000000000000000000000000000000000000000000000000000c200000000000000c2000101df0000000001df0000000000000000000000000000000f00100400044a0c100300000000000000000024053000000003c603a640000003001e00b640060000001a001a001a0b0b003200ff00000000000001400255090c6b69566b41320418,
  0x240010800042400000000000000000000000000000000000000000000000000000000000000000000000000000000000000000000000000000000000000000000000000000000c200000000000000c2000201df0000000001df0000000000000000000000000000000f00100400044a0c100300000000000000000024053000000003c603a640000003001e00b640060000001a001a001a0b0b003200ff000000000000014002550a0c6b69566b41320419,
  0x240010800042400000000000000000000000000000000000000000000000000000000000000000000000000000000000000000000000000000000000000000000000000000000c200000000000000c2000301df0000000001df0000000000000000000000000000000f00100400044a0c100300000000000000000024053000000003c603a640000003001e00b640060000001a001a001a0b0b003200ff000000000000014002550e0c6b69566b4132041a,
  0x240010800042400000000000000000000000000000000000000000000000000000000000000000000000000000000000000000000000000000000000000000000000000000000c200000000000000c2000401df0000000001df0000000000000000000000000000000f00100400044a0c100300000000000000000024053000000003c603a640000003001e00b640060000001a001a001a0b0b003200ff00000000000001400255020c6b69566b4132041b,
  0x240010800042400000000000000000000000000000000000000000000000000000000000000000000000000000000000000000000000000000000000000000000000000000000c200000000000000c2000501df0000000001df0000000000000000000000000000000f00100400044a0c100300000000000000000024053000000003c603a640000003001e00b640060000001a001a001a0b0b003200ff000000000000014002550b0c6b69566b4132041c,
  0xcf61481e00507a00000000000000000000000000000000000000000000000000000000000000000000000000000000000000000000000000000000000000000000000000000000000000000000000eb000101e30000000101e3000000000000000000000000000800009c48c101cc008d108766000000400000000c000210420001098707684300213402bc015448020000008c002e002e0f0f050000ff0000000000000300032d0f0878965a786464041d,
  0x4f63084600505a00000000000000000000000000000000000000000000000000000000000000000000000000000000000000000000000000000000000000000000000000000000000000000000000ec000101e40000000101e4000000000000000000000000000c00008801c10184000d10877e000000400000000c000210430881299f0768430019c80276015446020000008c002e002e0f0f050000ff0000000000000300032d0f0a78967864645a041e,
  0x75631b9c00625a00000000000000000000000000000000000000000000000000000000000000000000000000000000000000000000000000000000000000000000000000000000000000000000000ed000101e70000000101e7000000000000000000000000000000000c02450284028d100f02000000400000000a00423002020001c64f284340196402b2015444020000001a001a001a0f0f050000ff0000000000000003032d0f0764785a647896041f,
  0x1181890040c35000000000000000000000000000000000000000000000000000000000000000000000000000000000000000000000000000000000000000000000000000000000000000000000000f1000101ec0000000001ec0000000000000000000000000000100020aa080000000c1008010000000000000000800010000004008413280f0000340028012c430200000020002000200f0f036400ff0000009d009d00c00303020b4b787f4b67640420,
  0xff63ffff50627a00000000000000000000000000000000000000000000000000000000000000000000000000000000000000000000000000000000000000000000000000000000000000000000000ee000101ed0000000001ed000000000000000000000000000400203c6b5602dc568f518f75000000400000000000229043028528df1b6e4b400c8001400168481300000079007900790f0f050000ff0000000000000003030301017878787878780421,
  0xff63ffff50627a00000000000000000000000000000000000000000000000000000000000000000000000000000000000000000000000000000000000000000000000000000000000000000000000ee000201ed0000000001ed000000000000000000000000000400203c6b5602dc568f518f75000000400000000000229043028528df1b6e4b400c8001400168481300000079007900790f0f050000ff0000000000000003030302027878787878780422,
  0xff63ffff50627a00000000000000000000000000000000000000000000000000000000000000000000000000000000000000000000000000000000000000000000000000000000000000000000000ee000301ed0000000001ed000000000000000000000000000400203c6b5602dc568f518f75000000400000000000229043028528df1b6e4b400c8001400168481300000079007900790f0f050000ff0000000000000003030303037878787878780423,
  0xff63ffff50627a00000000000000000000000000000000000000000000000000000000000000000000000000000000000000000000000000000000000000000000000000000000000000000000000ee000401ed0000000001ed000000000000000000000000000400203c6b5602dc568f518f75000000400000000000229043028528df1b6e4b400c8001400168481300000079007900790f0f050000ff0000000000000003030304047878787878780424,
  0xff63ffff50627a00000000000000000000000000000000000000000000000000000000000000000000000000000000000000000000000000000000000000000000000000000000000000000000000ee000501ed0000000001ed000000000000000000000000000400203c6b5602dc568f518f75000000400000000000229043028528df1b6e4b400c8001400168481300000079007900790f0f050000ff0000000000000003030305057878787878780425,
  0xff63ffff50627a00000000000000000000000000000000000000000000000000000000000000000000000000000000000000000000000000000000000000000000000000000000000000000000000ee000601ed0000000001ed000000000000000000000000000400203c6b5602dc568f518f75000000400000000000229043028528df1b6e4b400c8001400168481300000079007900790f0f050000ff0000000000000003030306067878787878780426,
  0xff63ffff50627a00000000000000000000000000000000000000000000000000000000000000000000000000000000000000000000000000000000000000000000000000000000000000000000000ee000701ed0000000001ed000000000000000000000000000400203c6b5602dc568f518f75000000400000000000229043028528df1b6e4b400c8001400168481300000079007900790f0f050000ff0000000000000003030307077878787878780427,
  0xff63ffff50627a00000000000000000000000000000000000000000000000000000000000000000000000000000000000000000000000000000000000000000000000000000000000000000000000ee000801ed0000000001ed000000000000000000000000000400203c6b5602dc568f518f75000000400000000000229043028528df1b6e4b400c8001400168481300000079007900790f0f050000ff0000000000000003030308087878787878780428,
  0xff63ffff50627a00000000000000000000000000000000000000000000000000000000000000000000000000000000000000000000000000000000000000000000000000000000000000000000000ee000901ed0000000001ed000000000000000000000000000400203c6b5602dc568f518f75000000400000000000229043028528df1b6e4b400c8001400168481300000079007900790f0f050000ff0000000000000003030309097878787878780429,
  0xff63ffff50627a00000000000000000000000000000000000000000000000000000000000000000000000000000000000000000000000000000000000000000000000000000000000000000000000ee000a01ed0000000001ed000000000000000000000000000400203c6b5602dc568f518f75000000400000000000229043028528df1b6e4b400c8001400168481300000079007900790f0f050000ff000000000000000303030a0a787878787878042a,
  0xff63ffff50627a00000000000000000000000000000000000000000000000000000000000000000000000000000000000000000000000000000000000000000000000000000000000000000000000ee000b01ed0000000001ed000000000000000000000000000400203c6b5602dc568f518f75000000400000000000229043028528df1b6e4b400c8001400168481300000079007900790f0f050000ff000000000000000303030b0b787878787878042b,
  0xff63ffff50627a00000000000000000000000000000000000000000000000000000000000000000000000000000000000000000000000000000000000000000000000000000000000000000000000ee000c01ed0000000001ed000000000000000000000000000400203c6b5602dc568f518f75000000400000000000229043028528df1b6e4b400c8001400168481300000079007900790f0f050000ff000000000000000303030c0c787878787878042c,
  0xff63ffff50627a00000000000000000000000000000000000000000000000000000000000000000000000000000000000000000000000000000000000000000000000000000000000000000000000ee000d01ed0000000001ed000000000000000000000000000400203c6b5602dc568f518f75000000400000000000229043028528df1b6e4b400c8001400168481300000079007900790f0f050000ff000000000000000303030d0d787878787878042d,
  0xff63ffff50627a00000000000000000000000000000000000000000000000000000000000000000000000000000000000000000000000000000000000000000000000000000000000000000000000ee000e01ed0000000001ed000000000000000000000000000400203c6b5602dc568f518f75000000400000000000229043028528df1b6e4b400c8001400168481300000079007900790f0f050000ff000000000000000303030e0e787878787878042e,
  0xff63ffff50627a00000000000000000000000000000000000000000000000000000000000000000000000000000000000000000000000000000000000000000000000000000000000000000000000ee000f01ed0000000001ed000000000000000000000000000400203c6b5602dc568f518f75000000400000000000229043028528df1b6e4b400c8001400168481300000079007900790f0f050000ff000000000000000303030f0f787878787878042f,
  0xff63ffff50627a00000000000000000000000000000000000000000000000000000000000000000000000000000000000000000000000000000000000000000000000000000000000000000000000ee001001ed0000000001ed000000000000000000000000000400203c6b5602dc568f518f75000000400000000000229043028528df1b6e4b400c8001400168481300000079007900790f0f050000ff0000000000000003030310107878787878780430,
  0xff63ffff50627a00000000000000000000000000000000000000000000000000000000000000000000000000000000000000000000000000000000000000000000000000000000000000000000000ee001101ed0000000001ed000000000000000000000000000400203c6b5602dc568f518f75000000400000000000229043028528df1b6e4b400c8001400168481300000079007900790f0f050000ff0000000000000003030311117878787878780431,
  0xff63ffff50627a00000000000000000000000000000000000000000000000000000000000000000000000000000000000000000000000000000000000000000000000000000000000000000000000ee001201ed0000000001ed000000000000000000000000000400203c6b5602dc568f518f75000000400000000000229043028528df1b6e4b400c8001400168481300000079007900790f0f050000ff0000000000000003030300007878787878780432,
  0x291302513048121000000000000000000000000000000000000000000000000000000000000000000000000000000000000000000000000000000000000000000000000000000000000000000000009000101f70000000001f5000000000000000000000000000400302000100000a0dc1120790000002400000001c00890000c80268a8b21830002460096010841020000004b0043004305050332001f000000000000000c0337100a416455506c5a0433,
  0x1021300000000000000000000000000000000000000000000000000000000000000000000000000000000000000000000000000000000000000000000000200000067009000830f0f0400007f0000000000000000000000000000000000000434,
  0x101010018c9120000000000000000000000000000000000000000000000000000000000000000000000000000000000000000000000000000000000000000000000000000000000000005e0000005e00010225000000000224000000000000000000000000000100002082080400004c10000100000000000000000100100000000284b32a1f0000c0007800a8430300000066003700220707003200fe00000221000000440287010b4b32694b69460435,
  0x101010018c9120000000000000000000000000000000000000000000000000000000000000000000000000000000000000000000000000000000000000000000000000000000000000005e0000005e00020225000000000224000000000000000000000000000100002082080400004c10000100000000000000000100100000000284b32a1f0000a3006e00a8430300000066003700220707003200fe00000221000000440287010b4b32694b69460436,
  0x1022600000000000000000000000000000000000000000000000000000000000000000000000000000000000000000000000000000000000000000000000300000068005b00450f0f0000007f0000000000000000000000000000000000000437,
  0x8020200404040800000000000000000000000000000000000000000000000000000000000000000000000000000000000000000000000000000000000000000000000000a600a600a60000000000a600020226000000020226000000000000000000000000000600100020000020a90c31103800000000000000000000100804b0259a8f20000000b4006400a1430300000068005b009b0c0c0032007f000000000000004002eb0a0a375062415c460438,
  0x1022a00000000000000000000000000000000000000000000000000000000000000000000000000000000000000000000000000000000000000000000000200000027003700370f0f0300007f0000000000000000000000000000000000000439,
  0x1022b000000000000000000000000000000000000000000000000000000000000000000000000000000000000000000000000000000000000000000000004000000a1007d007d0f0f0300007f000000000000000000000000000000000000043a,
  0x2022b000000000000000000000000000000000000000000000000000000000000000000000000000000000000000000000000000000000000000000000004000000a100ff00ff0f0f0300007f000000000000000000000000000000000000043b,
  0x3022b000000000000000000000000000000000000000000000000000000000000000000000000000000000000000000000000000000000000000000000004000000a100ff00ff0f0f0300007f000000000000000000000000000000000000043c,
  0x10232000000000000000000000000000000000000000000000000000000000000000000000000000000000000000000000000000000000000000000000002000000fe00fe00fe0f0f0000007f000000000000000000000000000000000000043d,
  0x20003404006050000000000000000000000000000000000000000000000000000000000000000000000000000000000000000000000000000000000000000000000000000db000000000000000000db0001023a00000001023a0000000000000000000000000000000220100402046a0c50100100000000000000000020b0000f10958687a08000007d004600424702000000950095009505050332001f000000000000010001d70700285546283c23043e,
  0x23013404006252000000000000000000000000000000000000000000000000000000000000000000000000000000000000000000000000000000000000000000000000000dc000000000000000000dc0001023b00000001023a0000000000000000000000000000800220110402046a4c50108500000000000000000020b8020f10958687a0830302da00a000b34702000000950095009505050332001f0000000000000200027307003c7d6e3c6437043f,
  0x1024900000000000000000000000000000000000000000000000000000000000000000000000000000000000000000000000000000000000000000000000400000000000000000f0f0000007f0000000000000000000000000000000000000440,
  0x2024900000000000000000000000000000000000000000000000000000000000000000000000000000000000000000000000000000000000000000000000400000000000000000f0f0000007f0000000000000000000000000000000000000441,
  0x3024900000000000000000000000000000000000000000000000000000000000000000000000000000000000000000000000000000000000000000000000400000000000000000f0f0000007f0000000000000000000000000000000000000442,
  0x1024a00000000000000000000000000000000000000000000000000000000000000000000000000000000000000000000000000000000000000000000000400000000000000000f0f0000007f0000000000000000000000000000000000000443,
  0x2024a00000000000000000000000000000000000000000000000000000000000000000000000000000000000000000000000000000000000000000000000400000000000000000f0f0000007f0000000000000000000000000000000000000444,
  0x3024a00000000000000000000000000000000000000000000000000000000000000000000000000000000000000000000000000000000000000000000000400000000000000000f0f0000007f0000000000000000000000000000000000000445,
  0x1026a000000000000000000000000000000000000000000000000000000000000000000000000000000000000000000000000000000000000000000000002000000fa00fa00fa0f0f0000007f0000000000000000000000000000000000000446,
  0x11018026405652000000000000000000000000000000000000000000000000000000000000000000000000000000000000000000000000000000000000000000000000000de000000000000000000de00010274000000000273000000000000000000000000000002200424002100900c10100000000000000000008000900205010186c760034001b200aa00b3400200000080007d003304040532000000000000000002000287020d46704146536e0447,
  0x31010610005012000000000000000000000000000000000000000000000000000000000000000000000000000000000000000000000000000000000000000000000000000e7000000000000000000e700010281000000010281000000000000000000000000000002026011040100b98c5018020000000000000002800050000f004c828fa003400276008c0122430200000090009000900f0f055a000000000000000000c0030302025a6e7950644f0448,
  0x3505449002540200000000000000000000000000000000000000000000000000000000000000000000000000000000000000000000000000000000000000000000000000000000000e80000000000e800010282000000010282000000000000000000000000000000436051040100a98c501b020000000000000003200510000f004c8287a043600262012c012241020000000a000a000a0f0f055a000000000000000003000303020c50916546694f0449,
  0x11610c1200702a0000000000000000000000000000000000000000000000000000000000000000000000000000000000000000000000000000000000000000000000000000000000000000000e900e900010285000000010285000000000000000000000000000000007809000300808d500c030000000000000002000210000b2358818770834002a80082012c450200000016001600160f0f055a0000000000000000000c0303020450695b5a9159044a,
  0x10286000000000000000000000000000000000000000000000000000000000000000000000000000000000000000000000000000000000000000000000003000000a300a300a30f0f050000ff000000000000000000000000000000000000044b],
  [0x20286000000000000000000000000000000000000000000000000000000000000000000000000000000000000000000000000000000000000000000000003000000a400a400a40f0f050000ff000000000000000000000000000000000000044c,
  0x102870000000000000000000000000000000000000000000000000000000000000000000000000000000000000000000000000000000000000000000000020000009a009a009a0f0f050000ff000000000000000000000000000000000000044d,
  0x1028800000000000000000000000000000000000000000000000000000000000000000000000000000000000000000000000000000000000000000000000200000000000000000f0f000000ff000000000000000000000000000000000000044e,
  0x1028900000000000000000000000000000000000000000000000000000000000000000000000000000000000000000000000000000000000000000000000500000058005800580f0f050000ff000000000000000000000000000000000000044f,
  0x2028900000000000000000000000000000000000000000000000000000000000000000000000000000000000000000000000000000000000000000000000500000058005800580f0f050000ff0000000000000000000000000000000000000450,
  0x3028900000000000000000000000000000000000000000000000000000000000000000000000000000000000000000000000000000000000000000000000500000058005800580f0f050000ff0000000000000000000000000000000000000451,
  0x4028900000000000000000000000000000000000000000000000000000000000000000000000000000000000000000000000000000000000000000000000500000058005800580f0f050000ff0000000000000000000000000000000000000452,
  0x1029200000000000000000000000000000000000000000000000000000000000000000000000000000000000000000000000000000000000000000000000300000000000000000f0f0000001f0000000000000000000000000000000000000453,
  0x2029200000000000000000000000000000000000000000000000000000000000000000000000000000000000000000000000000000000000000000000000300000000000000000f0f0000001f0000000000000000000000000000000000000454,
  0x1029800000000000000000000000000000000000000000000000000000000000000000000000000000000000000000000000000000000000000000000001400000000000000000f0f0000007f0000000000000000000000000000000000000455,
  0x2029800000000000000000000000000000000000000000000000000000000000000000000000000000000000000000000000000000000000000000000001400000000000000000f0f0000007f0000000000000000000000000000000000000456,
  0x3029800000000000000000000000000000000000000000000000000000000000000000000000000000000000000000000000000000000000000000000001400000000000000000f0f0000007f0000000000000000000000000000000000000457,
  0x4029800000000000000000000000000000000000000000000000000000000000000000000000000000000000000000000000000000000000000000000001400000000000000000f0f0000007f0000000000000000000000000000000000000458,
  0x5029800000000000000000000000000000000000000000000000000000000000000000000000000000000000000000000000000000000000000000000001400000000000000000f0f0000007f0000000000000000000000000000000000000459,
  0x6029800000000000000000000000000000000000000000000000000000000000000000000000000000000000000000000000000000000000000000000001400000000000000000f0f0000007f000000000000000000000000000000000000045a,
  0x7029800000000000000000000000000000000000000000000000000000000000000000000000000000000000000000000000000000000000000000000001400000000000000000f0f0000007f000000000000000000000000000000000000045b,
  0x8029800000000000000000000000000000000000000000000000000000000000000000000000000000000000000000000000000000000000000000000001400000000000000000f0f0000007f000000000000000000000000000000000000045c,
  0x9029800000000000000000000000000000000000000000000000000000000000000000000000000000000000000000000000000000000000000000000001400000000000000000f0f0000007f000000000000000000000000000000000000045d,
  0xa029800000000000000000000000000000000000000000000000000000000000000000000000000000000000000000000000000000000000000000000001400000000000000000f0f0000007f000000000000000000000000000000000000045e,
  0xb029800000000000000000000000000000000000000000000000000000000000000000000000000000000000000000000000000000000000000000000001400000000000000000f0f0000007f000000000000000000000000000000000000045f,
  0xc029800000000000000000000000000000000000000000000000000000000000000000000000000000000000000000000000000000000000000000000001400000000000000000f0f0000007f0000000000000000000000000000000000000460,
  0xd029800000000000000000000000000000000000000000000000000000000000000000000000000000000000000000000000000000000000000000000001400000000000000000f0f0000007f0000000000000000000000000000000000000461,
  0xe029800000000000000000000000000000000000000000000000000000000000000000000000000000000000000000000000000000000000000000000001400000000000000000f0f0000007f0000000000000000000000000000000000000462,
  0xf029800000000000000000000000000000000000000000000000000000000000000000000000000000000000000000000000000000000000000000000001400000000000000000f0f0000007f0000000000000000000000000000000000000463,
  0x10029800000000000000000000000000000000000000000000000000000000000000000000000000000000000000000000000000000000000000000000001400000000000000000f0f0000007f0000000000000000000000000000000000000464,
  0x11029800000000000000000000000000000000000000000000000000000000000000000000000000000000000000000000000000000000000000000000001400000000000000000f0f0000007f0000000000000000000000000000000000000465,
  0x12029800000000000000000000000000000000000000000000000000000000000000000000000000000000000000000000000000000000000000000000001400000000000000000f0f0000007f0000000000000000000000000000000000000466,
  0x13029800000000000000000000000000000000000000000000000000000000000000000000000000000000000000000000000000000000000000000000001400000000000000000f0f0000007f0000000000000000000000000000000000000467,
  0x1029900000000000000000000000000000000000000000000000000000000000000000000000000000000000000000000000000000000000000000000001400000000000000000f0f0000007f0000000000000000000000000000000000000468,
  0x2029900000000000000000000000000000000000000000000000000000000000000000000000000000000000000000000000000000000000000000000001400000000000000000f0f0000007f0000000000000000000000000000000000000469,
  0x3029900000000000000000000000000000000000000000000000000000000000000000000000000000000000000000000000000000000000000000000001400000000000000000f0f0000007f000000000000000000000000000000000000046a,
  0x4029900000000000000000000000000000000000000000000000000000000000000000000000000000000000000000000000000000000000000000000001400000000000000000f0f0000007f000000000000000000000000000000000000046b,
  0x5029900000000000000000000000000000000000000000000000000000000000000000000000000000000000000000000000000000000000000000000001400000000000000000f0f0000007f000000000000000000000000000000000000046c,
  0x6029900000000000000000000000000000000000000000000000000000000000000000000000000000000000000000000000000000000000000000000001400000000000000000f0f0000007f000000000000000000000000000000000000046d,
  0x7029900000000000000000000000000000000000000000000000000000000000000000000000000000000000000000000000000000000000000000000001400000000000000000f0f0000007f000000000000000000000000000000000000046e,
  0x8029900000000000000000000000000000000000000000000000000000000000000000000000000000000000000000000000000000000000000000000001400000000000000000f0f0000007f000000000000000000000000000000000000046f,
  0x9029900000000000000000000000000000000000000000000000000000000000000000000000000000000000000000000000000000000000000000000001400000000000000000f0f0000007f0000000000000000000000000000000000000470,
  0xa029900000000000000000000000000000000000000000000000000000000000000000000000000000000000000000000000000000000000000000000001400000000000000000f0f0000007f0000000000000000000000000000000000000471,
  0xb029900000000000000000000000000000000000000000000000000000000000000000000000000000000000000000000000000000000000000000000001400000000000000000f0f0000007f0000000000000000000000000000000000000472,
  0xc029900000000000000000000000000000000000000000000000000000000000000000000000000000000000000000000000000000000000000000000001400000000000000000f0f0000007f0000000000000000000000000000000000000473,
  0xd029900000000000000000000000000000000000000000000000000000000000000000000000000000000000000000000000000000000000000000000001400000000000000000f0f0000007f0000000000000000000000000000000000000474,
  0xe029900000000000000000000000000000000000000000000000000000000000000000000000000000000000000000000000000000000000000000000001400000000000000000f0f0000007f0000000000000000000000000000000000000475,
  0xf029900000000000000000000000000000000000000000000000000000000000000000000000000000000000000000000000000000000000000000000001400000000000000000f0f0000007f0000000000000000000000000000000000000476,
  0x10029900000000000000000000000000000000000000000000000000000000000000000000000000000000000000000000000000000000000000000000001400000000000000000f0f0000007f0000000000000000000000000000000000000477,
  0x11029900000000000000000000000000000000000000000000000000000000000000000000000000000000000000000000000000000000000000000000001400000000000000000f0f0000007f0000000000000000000000000000000000000478,
  0x12029900000000000000000000000000000000000000000000000000000000000000000000000000000000000000000000000000000000000000000000001400000000000000000f0f0000007f0000000000000000000000000000000000000479,
  0x13029900000000000000000000000000000000000000000000000000000000000000000000000000000000000000000000000000000000000000000000001400000000000000000f0f0000007f000000000000000000000000000000000000047a,
  0x1029a00000000000000000000000000000000000000000000000000000000000000000000000000000000000000000000000000000000000000000000001400000000000000000f0f0000007f000000000000000000000000000000000000047b,
  0x2029a00000000000000000000000000000000000000000000000000000000000000000000000000000000000000000000000000000000000000000000001400000000000000000f0f0000007f000000000000000000000000000000000000047c,
  0x3029a00000000000000000000000000000000000000000000000000000000000000000000000000000000000000000000000000000000000000000000001400000000000000000f0f0000007f000000000000000000000000000000000000047d,
  0x4029a00000000000000000000000000000000000000000000000000000000000000000000000000000000000000000000000000000000000000000000001400000000000000000f0f0000007f000000000000000000000000000000000000047e,
  0x5029a00000000000000000000000000000000000000000000000000000000000000000000000000000000000000000000000000000000000000000000001400000000000000000f0f0000007f000000000000000000000000000000000000047f,
  0x6029a00000000000000000000000000000000000000000000000000000000000000000000000000000000000000000000000000000000000000000000001400000000000000000f0f0000007f0000000000000000000000000000000000000480,
  0x7029a00000000000000000000000000000000000000000000000000000000000000000000000000000000000000000000000000000000000000000000001400000000000000000f0f0000007f0000000000000000000000000000000000000481,
  0x8029a00000000000000000000000000000000000000000000000000000000000000000000000000000000000000000000000000000000000000000000001400000000000000000f0f0000007f0000000000000000000000000000000000000482,
  0x9029a00000000000000000000000000000000000000000000000000000000000000000000000000000000000000000000000000000000000000000000001400000000000000000f0f0000007f0000000000000000000000000000000000000483,
  0xa029a00000000000000000000000000000000000000000000000000000000000000000000000000000000000000000000000000000000000000000000001400000000000000000f0f0000007f0000000000000000000000000000000000000484,
  0xb029a00000000000000000000000000000000000000000000000000000000000000000000000000000000000000000000000000000000000000000000001400000000000000000f0f0000007f0000000000000000000000000000000000000485,
  0xc029a00000000000000000000000000000000000000000000000000000000000000000000000000000000000000000000000000000000000000000000001400000000000000000f0f0000007f0000000000000000000000000000000000000486,
  0xd029a00000000000000000000000000000000000000000000000000000000000000000000000000000000000000000000000000000000000000000000001400000000000000000f0f0000007f0000000000000000000000000000000000000487,
  0xe029a00000000000000000000000000000000000000000000000000000000000000000000000000000000000000000000000000000000000000000000001400000000000000000f0f0000007f0000000000000000000000000000000000000488,
  0xf029a00000000000000000000000000000000000000000000000000000000000000000000000000000000000000000000000000000000000000000000001400000000000000000f0f0000007f0000000000000000000000000000000000000489,
  0x10029a00000000000000000000000000000000000000000000000000000000000000000000000000000000000000000000000000000000000000000000001400000000000000000f0f0000007f000000000000000000000000000000000000048a,
  0x11029a00000000000000000000000000000000000000000000000000000000000000000000000000000000000000000000000000000000000000000000001400000000000000000f0f0000007f000000000000000000000000000000000000048b,
  0x12029a00000000000000000000000000000000000000000000000000000000000000000000000000000000000000000000000000000000000000000000001400000000000000000f0f0000007f000000000000000000000000000000000000048c,
  0x13029a00000000000000000000000000000000000000000000000000000000000000000000000000000000000000000000000000000000000000000000001400000000000000000f0f0000007f000000000000000000000000000000000000048d,
  0x1029d00000000000000000000000000000000000000000000000000000000000000000000000000000000000000000000000000000000000000000000000500000000000000000f0f000000fe000000000000000000000000000000000000048e,
  0x2029d00000000000000000000000000000000000000000000000000000000000000000000000000000000000000000000000000000000000000000000000500000000000000000f0f000000fe000000000000000000000000000000000000048f,
  0x3029d00000000000000000000000000000000000000000000000000000000000000000000000000000000000000000000000000000000000000000000000500000000000000000f0f000000fe0000000000000000000000000000000000000490,
  0x4029d00000000000000000000000000000000000000000000000000000000000000000000000000000000000000000000000000000000000000000000000500000000000000000f0f000000fe0000000000000000000000000000000000000491,
  0x1029e00000000000000000000000000000000000000000000000000000000000000000000000000000000000000000000000000000000000000000000000600000000000000000f0f000000fe0000000000000000000000000000000000000492,
  0x2029e00000000000000000000000000000000000000000000000000000000000000000000000000000000000000000000000000000000000000000000000600000000000000000f0f000000fe0000000000000000000000000000000000000493,
  0x3029e00000000000000000000000000000000000000000000000000000000000000000000000000000000000000000000000000000000000000000000000600000000000000000f0f000000fe0000000000000000000000000000000000000494,
  0x4029e00000000000000000000000000000000000000000000000000000000000000000000000000000000000000000000000000000000000000000000000600000000000000000f0f000000fe0000000000000000000000000000000000000495,
  0x5029e00000000000000000000000000000000000000000000000000000000000000000000000000000000000000000000000000000000000000000000000600000000000000000f0f000000fe0000000000000000000000000000000000000496,
  0x1029f00000000000000000000000000000000000000000000000000000000000000000000000000000000000000000000000000000000000000000000000500000000000000000f0f000000fe0000000000000000000000000000000000000497,
  0x2029f00000000000000000000000000000000000000000000000000000000000000000000000000000000000000000000000000000000000000000000000500000000000000000f0f000000fe0000000000000000000000000000000000000498,
  0x3029f00000000000000000000000000000000000000000000000000000000000000000000000000000000000000000000000000000000000000000000000500000000000000000f0f000000fe0000000000000000000000000000000000000499,
  0x4029f00000000000000000000000000000000000000000000000000000000000000000000000000000000000000000000000000000000000000000000000500000000000000000f0f000000fe000000000000000000000000000000000000049a,
  0x102a400000000000000000000000000000000000000000000000000000000000000000000000000000000000000000000000000000000000000000000000a00000000000000000f0f0000007f000000000000000000000000000000000000049b,
  0x202a400000000000000000000000000000000000000000000000000000000000000000000000000000000000000000000000000000000000000000000000a00000000000000000f0f0000007f000000000000000000000000000000000000049c,
  0x302a400000000000000000000000000000000000000000000000000000000000000000000000000000000000000000000000000000000000000000000000a00000000000000000f0f0000007f000000000000000000000000000000000000049d,
  0x402a400000000000000000000000000000000000000000000000000000000000000000000000000000000000000000000000000000000000000000000000a00000000000000000f0f0000007f000000000000000000000000000000000000049e,
  0x502a400000000000000000000000000000000000000000000000000000000000000000000000000000000000000000000000000000000000000000000000a00000000000000000f0f0000007f000000000000000000000000000000000000049f,
  0x602a400000000000000000000000000000000000000000000000000000000000000000000000000000000000000000000000000000000000000000000000a00000000000000000f0f0000007f00000000000000000000000000000000000004a0,
  0x702a400000000000000000000000000000000000000000000000000000000000000000000000000000000000000000000000000000000000000000000000a00000000000000000f0f0000007f00000000000000000000000000000000000004a1,
  0x802a400000000000000000000000000000000000000000000000000000000000000000000000000000000000000000000000000000000000000000000000a00000000000000000f0f0000007f00000000000000000000000000000000000004a2,
  0x902a400000000000000000000000000000000000000000000000000000000000000000000000000000000000000000000000000000000000000000000000a00000000000000000f0f0000007f00000000000000000000000000000000000004a3,
  0x102a6000000000000000000000000000000000000000000000000000000000000000000000000000000000000000000000000000000000000000000000002000000ac009700330f0f000000fe00000000000000000000000000000000000004a4,
  0x102a9000000000000000000000000000000000000000000000000000000000000000000000000000000000000000000000000000000000000000000000002000000b000b000b00f0f0000007f00000000000000000000000000000000000004a5,
  0xcc40045a0040000000000000000000000000000000000000000000000000000000000000000000000000000000000000000000000000000000000000000000000000000000000740000007400000074000102c10000000002c0000000000000000000000000000000004000400020008d500162000000400000000000001000002000868360000002ad0046009e4602000000b7008e009d0e0e0523007f000001270000080002690f08715328534b3a04a6,
  0xcf41045a03400a0000000000000000000000000000000000000000000000000000000000000000000000000000000000000000000000000000000000000000000000000000000750000007500000075000102c20000000002c0000000000000000000000000000800004101400020808d50877e000000400000000e000210000420408e8360032b0d0d00aa012c4602000000b7008e009d0e0e0523007f0000000000000c0003370f08966e3c64645004a7,
  0x102c60000000000000000000000000000000000000000000000000000000000000000000000000000000000000000000000000000000000000000000000040000000f007700350f0f0000007f00000000000000000000000000000000000004a8,
  0x202c60000000000000000000000000000000000000000000000000000000000000000000000000000000000000000000000000000000000000000000000040000000f007700350f0f0000007f00000000000000000000000000000000000004a9,
  0x302c60000000000000000000000000000000000000000000000000000000000000000000000000000000000000000000000000000000000000000000000040000000f007700350f0f0000007f00000000000000000000000000000000000004aa,
  0x102c70000000000000000000000000000000000000000000000000000000000000000000000000000000000000000000000000000000000000000000000040000000f007700350f0f0000007f00000000000000000000000000000000000004ab,
  0x202c70000000000000000000000000000000000000000000000000000000000000000000000000000000000000000000000000000000000000000000000040000000f007700350f0f0000007f00000000000000000000000000000000000004ac,
  0x302c70000000000000000000000000000000000000000000000000000000000000000000000000000000000000000000000000000000000000000000000040000000f007700350f0f0000007f00000000000000000000000000000000000004ad,
  0x9294a4a00442b800000000000000000000000000000000000000000000000000000000000000000000000000000000000000000000000000000000000000000000000000d8000000000000000000d8000102c90000000002c8000000000000000000000000000840008c40001040810c10047a0000000000000004000210090009008a8b6803000a40008c00b4410300000005007300ad0a010032007f00000000000000200287050e242226b87f5f04ae,
  0x9294a4a00442b800000000000000000000000000000000000000000000000000000000000000000000000000000000000000000000000000000000000000000000000000d8000000000000000000d8000202c90000000002c8000000000000000000000000000840008c40001040810c10047a0000000000000004000210090009008a8b68030013ba00c800b4410300000005007300ad0a010032007f00000000000000200287050e242226b87f5f04af],
  [0x102cc000000000000000000000000000000000000000000000000000000000000000000000000000000000000000000000000000000000000000000000002000000bb00bb00bb0f0f050000ff00000000000000000000000000000000000004b0,
  0x102ce000000000000000000000000000000000000000000000000000000000000000000000000000000000000000000000000000000000000000000000005000000bc00bc00bc0f0f050000ff00000000000000000000000000000000000004b1,
  0x202ce000000000000000000000000000000000000000000000000000000000000000000000000000000000000000000000000000000000000000000000005000000d300d300d30f0f050000ff00000000000000000000000000000000000004b2,
  0x302ce000000000000000000000000000000000000000000000000000000000000000000000000000000000000000000000000000000000000000000000005000000d300d300d30f0f050000ff00000000000000000000000000000000000004b3,
  0x402ce000000000000000000000000000000000000000000000000000000000000000000000000000000000000000000000000000000000000000000000005000000d300d300d30f0f050000ff00000000000000000000000000000000000004b4,
  0x102cf0000000000000000000000000000000000000000000000000000000000000000000000000000000000000000000000000000000000000000000000020000001d001d001d0f0f050000ff00000000000000000000000000000000000004b5,
  0x102d000000000000000000000000000000000000000000000000000000000000000000000000000000000000000000000000000000000000000000000000200000000000000000f0f000000ff00000000000000000000000000000000000004b6,
  0x10101042059561000000000000000000000000000000000000000000000000000000000000000000000000000000000000000000000000000000000000000000000000000000000000000000000003000102d40000000002d2000000000000000000000000000002202096080400022c1000010000000900000000c040782201001184d32a1b00017200a001094502000000cb0041004104040332001f000000000000000c0337010b5f5f3c50705804b7,
  0x102e500000000000000000000000000000000000000000000000000000000000000000000000000000000000000000000000000000000000000000000000400000000000000000f0f000000bf00000000000000000000000000000000000004b8,
  0x202e500000000000000000000000000000000000000000000000000000000000000000000000000000000000000000000000000000000000000000000000400000000000000000f0f000000bf00000000000000000000000000000000000004b9,
  0x302e500000000000000000000000000000000000000000000000000000000000000000000000000000000000000000000000000000000000000000000000400000000000000000f0f000000bf00000000000000000000000000000000000004ba,
  0x102e800000000000000000000000000000000000000000000000000000000000000000000000000000000000000000000000000000000000000000000000200000014001400140f0f0000007f00000000000000000000000000000000000004bb,
  0x102e900000000000000000000000000000000000000000000000000000000000000000000000000000000000000000000000000000000000000000000000300000063004800330f0f0000007f00000000000000000000000000000000000004bc,
  0x202e9000000000000000000000000000000000000000000000000000000000000000000000000000000000000000000000000000000000000000000000003000000b500b500b50f0f0000007f00000000000000000000000000000000000004bd,
  0x102ea000000000000000000000000000000000000000000000000000000000000000000000000000000000000000000000000000000000000000000000002000000d000d000d00f0f0400007f00000000000000000000000000000000000004be,
  0x10305000000000000000000000000000000000000000000000000000000000000000000000000000000000000000000000000000000000000000000000012000000e100e100e10f0f050000ff00000000000000000000000000000000000004bf,
  0x20305000000000000000000000000000000000000000000000000000000000000000000000000000000000000000000000000000000000000000000000012000000e100e100e10f0f050000ff00000000000000000000000000000000000004c0,
  0x30305000000000000000000000000000000000000000000000000000000000000000000000000000000000000000000000000000000000000000000000012000000e100e100e10f0f050000ff00000000000000000000000000000000000004c1,
  0x40305000000000000000000000000000000000000000000000000000000000000000000000000000000000000000000000000000000000000000000000012000000e100e100e10f0f050000ff00000000000000000000000000000000000004c2,
  0x50305000000000000000000000000000000000000000000000000000000000000000000000000000000000000000000000000000000000000000000000012000000e100e100e10f0f050000ff00000000000000000000000000000000000004c3,
  0x60305000000000000000000000000000000000000000000000000000000000000000000000000000000000000000000000000000000000000000000000012000000e100e100e10f0f050000ff00000000000000000000000000000000000004c4,
  0x70305000000000000000000000000000000000000000000000000000000000000000000000000000000000000000000000000000000000000000000000012000000e100e100e10f0f050000ff00000000000000000000000000000000000004c5,
  0x80305000000000000000000000000000000000000000000000000000000000000000000000000000000000000000000000000000000000000000000000012000000e100e100e10f0f050000ff00000000000000000000000000000000000004c6,
  0x90305000000000000000000000000000000000000000000000000000000000000000000000000000000000000000000000000000000000000000000000012000000e100e100e10f0f050000ff00000000000000000000000000000000000004c7,
  0xa0305000000000000000000000000000000000000000000000000000000000000000000000000000000000000000000000000000000000000000000000012000000e100e100e10f0f050000ff00000000000000000000000000000000000004c8,
  0xb0305000000000000000000000000000000000000000000000000000000000000000000000000000000000000000000000000000000000000000000000012000000e100e100e10f0f050000ff00000000000000000000000000000000000004c9,
  0xc0305000000000000000000000000000000000000000000000000000000000000000000000000000000000000000000000000000000000000000000000012000000e100e100e10f0f050000ff00000000000000000000000000000000000004ca,
  0xd0305000000000000000000000000000000000000000000000000000000000000000000000000000000000000000000000000000000000000000000000012000000e100e100e10f0f050000ff00000000000000000000000000000000000004cb,
  0xe0305000000000000000000000000000000000000000000000000000000000000000000000000000000000000000000000000000000000000000000000012000000e100e100e10f0f050000ff00000000000000000000000000000000000004cc,
  0xf0305000000000000000000000000000000000000000000000000000000000000000000000000000000000000000000000000000000000000000000000012000000e100e100e10f0f050000ff00000000000000000000000000000000000004cd,
  0x100305000000000000000000000000000000000000000000000000000000000000000000000000000000000000000000000000000000000000000000000012000000e100e100e10f0f050000ff00000000000000000000000000000000000004ce,
  0x110305000000000000000000000000000000000000000000000000000000000000000000000000000000000000000000000000000000000000000000000012000000e100e100e10f0f050000ff00000000000000000000000000000000000004cf,
  0x1030600000000000000000000000000000000000000000000000000000000000000000000000000000000000000000000000000000000000000000000000e00000000000000000f0f000000ff00000000000000000000000000000000000004d0,
  0x2030600000000000000000000000000000000000000000000000000000000000000000000000000000000000000000000000000000000000000000000000e00000000000000000f0f000000ff00000000000000000000000000000000000004d1,
  0x3030600000000000000000000000000000000000000000000000000000000000000000000000000000000000000000000000000000000000000000000000e00000000000000000f0f000000ff00000000000000000000000000000000000004d2,
  0x4030600000000000000000000000000000000000000000000000000000000000000000000000000000000000000000000000000000000000000000000000e00000000000000000f0f000000ff00000000000000000000000000000000000004d3,
  0x5030600000000000000000000000000000000000000000000000000000000000000000000000000000000000000000000000000000000000000000000000e00000000000000000f0f000000ff00000000000000000000000000000000000004d4,
  0x6030600000000000000000000000000000000000000000000000000000000000000000000000000000000000000000000000000000000000000000000000e00000000000000000f0f000000ff00000000000000000000000000000000000004d5,
  0x7030600000000000000000000000000000000000000000000000000000000000000000000000000000000000000000000000000000000000000000000000e00000000000000000f0f000000ff00000000000000000000000000000000000004d6,
  0x8030600000000000000000000000000000000000000000000000000000000000000000000000000000000000000000000000000000000000000000000000e00000000000000000f0f000000ff00000000000000000000000000000000000004d7,
  0x9030600000000000000000000000000000000000000000000000000000000000000000000000000000000000000000000000000000000000000000000000e00000000000000000f0f000000ff00000000000000000000000000000000000004d8,
  0xa030600000000000000000000000000000000000000000000000000000000000000000000000000000000000000000000000000000000000000000000000e00000000000000000f0f000000ff00000000000000000000000000000000000004d9,
  0xb030600000000000000000000000000000000000000000000000000000000000000000000000000000000000000000000000000000000000000000000000e00000000000000000f0f000000ff00000000000000000000000000000000000004da,
  0xc030600000000000000000000000000000000000000000000000000000000000000000000000000000000000000000000000000000000000000000000000e00000000000000000f0f000000ff00000000000000000000000000000000000004db,
  0xd030600000000000000000000000000000000000000000000000000000000000000000000000000000000000000000000000000000000000000000000000e00000000000000000f0f000000ff00000000000000000000000000000000000004dc,
  0x1030a000000000000000000000000000000000000000000000000000000000000000000000000000000000000000000000000000000000000000000000002000000d100d100d10f0f0000007f00000000000000000000000000000000000004dd,
  0x10320000000000000000000000000000000000000000000000000000000000000000000000000000000000000000000000000000000000000000000000004000000e800e800e80f0f050000ff00000000000000000000000000000000000004de,
  0x20320000000000000000000000000000000000000000000000000000000000000000000000000000000000000000000000000000000000000000000000004000000e800e800e80f0f050000ff00000000000000000000000000000000000004df,
  0x30320000000000000000000000000000000000000000000000000000000000000000000000000000000000000000000000000000000000000000000000004000000e800e800e80f0f050000ff00000000000000000000000000000000000004e0,
  0x10321000000000000000000000000000000000000000000000000000000000000000000000000000000000000000000000000000000000000000000000002000000dc00dc00dc0f0f050000ff00000000000000000000000000000000000004e1,
  0x1034d000000000000000000000000000000000000000000000000000000000000000000000000000000000000000000000000000000000000000000000003000000f100f100f10f0f0000007f00000000000000000000000000000000000004e2,
  0x2034d000000000000000000000000000000000000000000000000000000000000000000000000000000000000000000000000000000000000000000000003000000f100f100f10f0f0000007f00000000000000000000000000000000000004e3,
  0x1035100000000000000000000000000000000000000000000000000000000000000000000000000000000000000000000000000000000000000000000000200000065003a00f40f0f0300007f00000000000000000000000000000000000004e4,
  0x1035600000000000000000000000000000000000000000000000000000000000000000000000000000000000000000000000000000000000000000000000200000082008500850f0f000000ff00000000000000000000000000000000000004e5,
  0x1035700000000000000000000000000000000000000000000000000000000000000000000000000000000000000000000000000000000000000000000000200000082008500850f0f000000ff00000000000000000000000000000000000004e6,
  0x10365000000000000000000000000000000000000000000000000000000000000000000000000000000000000000000000000000000000000000000000009000000a500af00af0f0f000000fe00000000000000000000000000000000000004e7,
  0x20365000000000000000000000000000000000000000000000000000000000000000000000000000000000000000000000000000000000000000000000009000000a500af00af0f0f000000fe00000000000000000000000000000000000004e8,
  0x30365000000000000000000000000000000000000000000000000000000000000000000000000000000000000000000000000000000000000000000000009000000a500af00af0f0f000000fe00000000000000000000000000000000000004e9,
  0x40365000000000000000000000000000000000000000000000000000000000000000000000000000000000000000000000000000000000000000000000009000000a500af00af0f0f000000fe00000000000000000000000000000000000004ea,
  0x50365000000000000000000000000000000000000000000000000000000000000000000000000000000000000000000000000000000000000000000000009000000a500af00af0f0f000000fe00000000000000000000000000000000000004eb,
  0x60365000000000000000000000000000000000000000000000000000000000000000000000000000000000000000000000000000000000000000000000009000000a500af00af0f0f000000fe00000000000000000000000000000000000004ec,
  0x70365000000000000000000000000000000000000000000000000000000000000000000000000000000000000000000000000000000000000000000000009000000a500af00af0f0f000000fe00000000000000000000000000000000000004ed,
  0x80365000000000000000000000000000000000000000000000000000000000000000000000000000000000000000000000000000000000000000000000009000000a500af00af0f0f000000fe00000000000000000000000000000000000004ee,
  0x1036b000000000000000000000000000000000000000000000000000000000000000000000000000000000000000000000000000000000000000000000002000000f800f800f80f0f0500007f00000000000000000000000000000000000004ef,
  0x1036c000000000000000000000000000000000000000000000000000000000000000000000000000000000000000000000000000000000000000000000002000000e3001c00140f0f040000fe00000000000000000000000000000000000004f0,
  0x1036d00000000000000000000000000000000000000000000000000000000000000000000000000000000000000000000000000000000000000000000000200000102010201020f0f0000007f00000000000000000000000000000000000004f1,
  0x10378000000000000000000000000000000000000000000000000000000000000000000000000000000000000000000000000000000000000000000000002000000ea00ea00ea0f0f050000ff00000000000000000000000000000000000004f2,
  0x10379000000000000000000000000000000000000000000000000000000000000000000000000000000000000000000000000000000000000000000000002000000eb00eb00eb0f0f050000ff00000000000000000000000000000000000004f3,
  0x1037a0000000000000000000000000000000000000000000000000000000000000000000000000000000000000000000000000000000000000000000000020000002e002e002e0f0f050000ff00000000000000000000000000000000000004f4,
  0x1037c00000000000000000000000000000000000000000000000000000000000000000000000000000000000000000000000000000000000000000000000200000104010401040f0f0500001f00000000000000000000000000000000000004f5,
  0x1037d00000000000000000000000000000000000000000000000000000000000000000000000000000000000000000000000000000000000000000000000200000066006600660f0f050000ff00000000000000000000000000000000000004f6,
  0x103820000000000000000000000000000000000000000000000000000000000000000000000000000000000000000000000000000000000000000000000030000010a010a010a0f0f050000ff00000000000000000000000000000000000004f7,
  0x203820000000000000000000000000000000000000000000000000000000000000000000000000000000000000000000000000000000000000000000000030000010b010b010b0f0f050000ff00000000000000000000000000000000000004f8,
  0x1210003206a7210000000000000000000000000000000000000000000000000000000000000000000000000000000000000000000000000000000000000000000000000000004900000000004900490001038400000000007b000000000000000000000000000000000440300040802c3030010000000000000002c00056200d020987c3aa0300037a00b400af450200000050007d004403030032007f000000000000000802730506462d555f874604f9,
  0x19031240406240800000000000000000000000000000000000000000000000000000000000000000000000000000000000000000000000000000000000000000000000000a700a700a70000000000a700010386000000020226000000000000000000000000000600100020000020a90c31103800000000000000000000100804b0259a8f200000044c012c00ba430200000068005b009b0c0c003200fe00000000000000020287070a4b644e415c7804fa,
  0x11818c20406402000000000000000000000000000000000000000000000000000000000000000000000000000000000000000000000000000000000000000000000000000000000000000ea000000ea00010389000000010389000000000000000000000000000000007809000300808d500c030000000000000002000210000b2358818770834001e000a0012245020000008e008e008e0f0f055a00fe000000000000000c0303021164872e6e734a04fb]]

end Verif.Data
