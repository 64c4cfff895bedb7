/-
Generated by tools/gen_personal.py from resources/bin/personal.
-/
namespace Verif.Data

/-- resources/bin/personal/personal_swsh, 1192 pieces of 176 bytes -/
def personal_swsh : List Nat := List.flatten [
  [0x1010101010101010101010101010100000000000000000000000000000000000000000000000000000100010001000100010000000000000000000000000000000000000000000000000000000000000000000000000000000000000000000000000000000000000000000000000000400000000000000000000000000000ff0000000000000000000000000000000000000000,
  0x440000001000000049004a000000490000004900000000000000000504040202050404050501010101010303030404030200030003000000003255003c002d00000000001e001900130010000e00000000000000000001000000000000000000010000000000202182080000000c52000300000001000000004100140000044284b32a0c000045004600404301000000220041004107010332141f0000000000000100012d030b41412d31312d0001,
  0x450000001000000049004a00000049000000ca00000000000000000404030202040403050501010101010203030304030200030002000000003250003c003200000000001e001900130010000e00000000000000000001000000000000000000020000000000202182080000000c52000300000001000000004100140000044284b32a0c0000820064008e4301000000220041004107010332141f0000000000000500022d030b50503c3f3e3c0002,
  0x4600000011000000ca004a000000ca0000004a00000000000000000505040202050504050501010101010202030303030200030002000000003c64003c003c00000000001e001900130010000e0000000000000000000100000000000000000003000000000020218a080000000d52040300000009000000044102140000044284b32a0f0003e800c801074301000000220041004107010332141f0000000000000600032d030b6464505352500003,
  0x6c00530000006c000000530000000000000000040303020204030305050101010101020203030302010002000100000000324b0032002800000000001e001900130010000e0000017a000000000004000000000000000000040000000000200000408888118d10800700000002000000004000501208014be48760a02b0055003c003e40010000005e004200420e010332141f0000000000000040012d0909323c412b34270004,
  0x6c00530000006c0000005300000000000000000403030202040303050501010101010202030303020100020001000000003250003c003200000000001e001900130010000e0000017b000000000004000000000000000000050000000000200000408888118d10800700000002000000004000501208014be48760a02b00be006e008e40010000005e004200420e010332141f0000000000000140022d09094150503a403a0005,
  0x4300000002050105000002050000010500000000000000000504030202050403050502010101010302030303030300030003000000003255003c003200000000001e001900130010000e0000017c00000000000400000000000000000006000000000320000140888a118d108407000000120000000ad002501208014be4c760ab6b038900aa010b40010000005e004200420e010332141f0000000000000300032d0209556d644e544e0006,
  0x4700000004000001f80160000001f8000001f800000000000000000504040202050404050501010101010303040404020200020001000000002855003c001e00000000001e001900130010000e00000000000000000007000000000000000000070000000000300020411060008c11007a00000004000000004000100008816a9a8b208013005a0032003f41010000002c0043004302010332141f0000000000000010012d0a0a40322b41302c0007,
  0x480000000400000191016000000191000001f800000000000000000504040202050404050501010101010303030303030300030001000000002855003c002800000000001e001900130010000e00000000000000000007000000000000000000080000000000300020411060008c11007a00000004000000004000100008816a9a8b20801300e10064008e41010000002c0043004302010332141f0000000000000410022d0a0a50413a503f3b0008,
  0x4900000005000001f80038000001f8000001f800000000000000000505050202050505050501010101010202030303020200020002000000003255003c002800000000001e001900130010000e00000000000000000007000000000000000000090000000c00300061451060018d11047a00000024000000004002100108816a9a8b608313035700a0010941010000002c0043004302010332141f0000000000000c00032d0a0a69554e64534f0009,
  0x21020f000000210000005100000000000000000303020202030302050501010101010404050606030200030002000000002850003c003200000000001e001900130010000e0000000d00000000000a0000000000000000000a000000000000000000000000000000000000000000000000000400000000000000000000001d001e002743010000003200130013030300320f7f000000000000000101ff060614142d231e2d000a,
  0x14e006a0000014e0000006a0000000000000000060605020206060505050101010101060606060602020002000200000000284b0032001e00000000001e001900130010000e0000000e00000000000a0000000000000000000b00000000000000000000400000000000000000000000000000040000000000000000000000630046004843010000003d003d003d030300320f7f00000000000000200278060619191e371432000b,
  0x2000000004f01e30000004f0000004f0000000000000000040303020204030305050101010101020203030302020002000200000000324b003c002800000000001e001900130010000e0000000f00000000000a0000000000000000000c0000000102000002200041022c1008000000000000000000808454000100018693a80b000140006e00c648010000006e000e000e030300320f7f000000de00000600032d0206505a46322d3c000c,
  0x10101010101010101010101010101000000000000000000000000000000000000000000000000000001000100010001000100000000000000000000000000000000000000000000000000000000000000000000000000000000000000000000000000000000000000000000000000000000000000000000000000000000007f000000000000000000000000000000000000000d,
  0x10101010101010101010101010101000000000000000000000000000000000000000000000000000001000100010001000100000000000000000000000000000000000000000000000000000000000000000000000000000000000000000000000000000000000000000000000000000000000000000000000000000000007f000000000000000000000000000000000000000e,
  0x10101010101010101010101010101000000000000000000000000000000000000000000000000000001000100010001000100000000000000000000000000000000000000000000000000000000000000000000000000000000000000000000000000000000000000000000000000000000000000000000000000000000007f000000000000000000000000000000000000000f,
  0x10101010101010101010101010101000000000000000000000000000000000000000000000000000001000100010001000100000000000000000000000000000000000000000000000000000000000000000000000000000000000000000000000000000000000000000000000000000000000000000000000000000000007f0000000000000000000000000000000000000010,
  0x10101010101010101010101010101000000000000000000000000000000000000000000000000000001000100010001000100000000000000000000000000000000000000000000000000000000000000000000000000000000000000000000000000000000000000000000000000000000000000000000000000000000007f0000000000000000000000000000000000000011,
  0x10101010101010101010101010101000000000000000000000000000000000000000000000000000001000100010001000100000000000000000000000000000000000000000000000000000000000000000000000000000000000000000000000000000000000000000000000000000000000000000000000000000000007f0000000000000000000000000000000000000012,
  0x10101010101010101010101010101000000000000000000000000000000000000000000000000000001000100010001000100000000000000000000000000000000000000000000000000000000000000000000000000000000000000000000000000000000000000000000000000000000000000000000000000000000007f0000000000000000000000000000000000000013,
  0x10101010101010101010101010101000000000000000000000000000000000000000000000000000001000100010001000100000000000000000000000000000000000000000000000000000000000000000000000000000000000000000000000000000000000000000000000000000000000000000000000000000000007f0000000000000000000000000000000000000014,
  0x10101010101010101010101010101000000000000000000000000000000000000000000000000000001000100010001000100000000000000000000000000000000000000000000000000000000000000000000000000000000000000000000000000000000000000000000000000000000000000000000000000000000007f0000000000000000000000000000000000000015,
  0x10101010101010101010101010101000000000000000000000000000000000000000000000000000001000100010001000100000000000000000000000000000000000000000000000000000000000000000000000000000000000000000000000000000000000000000000000000000000000000000000000000000000007f0000000000000000000000000000000000000016,
  0x10101010101010101010101010101000000000000000000000000000000000000000000000000000001000100010001000100000000000000000000000000000000000000000000000000000000000000000000000000000000000000000000000000000000000000000000000000000000000000000000000000000000007f0000000000000000000000000000000000000017,
  0x10101010101010101010101010101000000000000000000000000000000000000000000000000000001000100010001000100000000000000000000000000000000000000000000000000000000000000000000000000000000000000000000000000000000000000000000000000000000000000000000000000000000007f0000000000000000000000000000000000000018,
  0x5500000008000001580068000001580000005600000000000000000403020202040302050502020101010306020303020300020002000000001455003c003c00000000001e001900130010000e000000c20000000000ac02920158000000000019000000000441201000000008cc30131200000000000000000485100008000b82a3a6c027003c00280070420a0385001f00090009060500320a7f000000ec0000008002be0c0c32325a2837230019,
  0x56000000080000005501a100000055000001a100000000000000000403020202040302050502020101010608030303030300030001000000003255003c003c00000000001e001900130010000e000000c30000000000ac0000000000000000001a000000000441201100000008cc30131200000000000000022485100048000b82a3aec327012c005000f34202038e001f00090009060500320a7f00000000000000c0034b0c0c505a6e375a3c001a,
  0xa80001010000000059000e000000590000000e0000000000000000050404020205040405050101010101040404050501010001000100000000375f003c003c00000000001e001900130010000e0000000000010000001b0000000000000000001b0000000080201008121000008c1614030000000000000004000210020823098583e880000078003c003c4202038f00920008000805050032147f0000011e0000001001ff04041e1428554b32001b,
  0xa90001010000000059000e000000590000000e0000000000000000050404020205040405050101010101040404050501010001000100000000375f003c003c00000000001e001900130010000e0000000000010000001b0000000000000000001c0000000080a01809121000008c9614030000000000000004000210020823098583e8838001270064009e4202039000920008000805050032147f0000011e00000020025a0404372d416e644b001c,
  0x410000000000000000002c00270000002c0000002700000000000000000605050202060505050501010101010606060707030200030002000000004664003c003c00000000001e001900130010000e0000000000000000001d0000000000000000001d0000000008000008024000018c502362000000000000000000001402000002a6a3a08000004600280037410100000037004f00260501033214fe000000000000000101eb0303282829342f37001d,
  0x42000000000000000000f2002d000000f20000002d00000000000000000605050202060505050501010101010606060606030200030002000000004664003c003c00000000001e001900130010000e0000000000000000001d0000000000000000001e0000000008000008024000018c502362000000000000000400001402000002a6a3a0800000c800500080410100000037004f00260f0f033214fe000000000000000202780303373738433e46001e,
  0x430000000001000000019e002d0000019e0000002d00000000000000000403030202040303050501010101010303030404030200030002000000002d550037003700000000001e001900130010000e0000000000000000001d0000000000000000001f00000008c8805809424000ab8d50a77600000000000000040002340308630ab7abe0833f0258008200fd41010000007d004f00260f0f033214fe0000000000000003032d0403554b4c575c5a001f,
  0x4400000000000000000040002b000000400000002b00000000000000000403030202040303050501010101010404040505030200030002000000002d550037003700000000001e001900130010000e00000000000000000020000000000000000000200000000008800008024000008c522362000000000000000100001402000002a683a08000005a00320037460100000037004f0026050103321400000000000000000401eb030328283228392e0020,
  0x450000000000000000018e00740000018e0000007400000000000000000403030202040303050501010101010303030404030100030001000000002d550037003700000000001e001900130010000e00000000000000000020000000000000000000210000000008800008024000008c522362000000000000000500001402000002a683a0800000c3005a0080460100000037004f002605010332140000000000000000080278030337374139483d0021,
  0x460000000001000000018e00740000018e0000007400000000000000000403030202040303050501010101010303030404030100030001000000002d550037003700000000001e001900130010000e000000000000000000200000000000000000002200000008c8805809424000aa9d52a77600000000000000050002340308630ab78be0833f026c008c00fd46010000007d004f0026050103321400000000000000000c032d04034b55554d66510022,
  0x2c0000000212000000006b01420000006b000000ba0000000000000000040303020204030305050101010101030303040402020002000200000000284b0032003700000000001e001900130010000e000000ff0000000000ad0000000000000000002300000000142c30200002144aee1acb6600000000000000001280908088109a86ab2ecc3b004b003c0071490100000084006200380606048c0abf000000510000000202961111413c23302d460023,
  0x2d00000002120000000076006b000000760000006b0000000000000000050403020205040305050101010101030304040402020002000200000000325f003c004100000000001e001900130010000e000001000000000000ad0000000000000000002400000000142c30210002144aee1acb6600000000000000001280908088109a86ab2ecf3b0190008200f249010000006d006200380606048c0abf0000005100000003031911115a5f3c49465f0024,
  0x20000003500db000000350000003400000000000000000303030202030303050501010101010303040405020100020002000000003250003c002800000000001e001900130010000e0000004400010000002500000000000000000025000000000002002204800810cc109006000000000000000010103000120051c48328a0000063003c003c450203910046001200120505003214bf000000f90000004001be09094132412829260025,
  0x1020000007e00320000007e0000003500000000000000000505040202050504050501010101010202020303020200020002000000002d55003c003200000000001e001900130010000e0000004500010000002500000000000000000026000000000006003204820812ce1090060000000000000000101030001200d1c48328ab0000c7006e00b1420203920046001200120505003214bf000000f900000440024b09096451644b4c490026,
  0xc00030000000001300032000001300000003200000000000000000605050202060505050501010101010505050606010200010002000000004664003c003c00000000001e001900130010000e000000000000000000ae0000000000000000002700000000146830000010040a2c188b6600000000000000000280900088108a86ab3fc83b00370032005f49010000008400ac0038060604320abf000000510000000202aa1100192d14142d730027,
  0xd00030400000001300032000001300000003200000000000000000605050202060505050501010101010505050606010200010002000000004664003c003c00000000001e001900130010000e000000000000000000ae0000000000000000002800000000146830010010040a2c188b6600000000000000000280910088108a86ab3fcb3b0078006400da49010000007700ac0038060604320abf00000051000000030332110032552d2d468c0028,
  0x900000000002000000013a00300000013a00000030000000000000000003030202020303020505020201010103030304040103000100030000000028460028002800000000001e001900130010000e000000000000000000290000000000000000002900000000080000340000003b0c54100000000000000000008000540007000186d3a00040004b0050003146010000009700270027040400320f7f000000000000004001ff0203281e37232d280029,
  0x9100000000020000000193013a000001930000013a000000000000000003030202020303020505020201010102020203030301000300010000000028460028002800000000001e001900130010000e000000000000000000290000000000000000002a00000000080000340000003b0c54100000000000000000008000540007000186d3a10340022600a0009f46010000009700270027040400320f7f0000000000000080025a02034b415a46504b002a,
  0x10000000ca004a000000ca0000004a00000000000000000403030202040303050501010101010303030506020200020001000000003250003c003200000000001e001900130010000e0000003700000000002b0000000000000000002b0000000010002002080000000c50000100000000000000000100140000040084b32008000036003200404101000000320022002207070332147f000002210000010001ff030b414b1e37322d002b,
  0x1000000048005c000000480000005c00000000000000000403030202040303050501010101010303030404030300030003000000002d55003c003200000000001e001900130010000e0000003800000000002b0000000000000000002c0000000010002002080000000c50000100000000000000000100140088040084b320080000560050008a4101000000010022002207070332147f00000221000002000278030b4b552846413c002c,
  0x90000000ca005c000000ca0000005c0000000000000000040403020204040305050201010101040303040403030003000300000000375a003c003c00000000001e001900130010000e0000003900000000002b0000000000000000002d0000000110006002080000000c50000300000000000000000100140088040084b3280b0000ba007800f540010000001b0022002207070332147f0000022100000300032d030b5a6e3255504b002d,
  0x10101010101010101010101010101000000000000000000000000000000000000000000000000000001000100010001000100000000000000000000000000000000000000000000000000000000000000000000000000000000000000000000000000000000000000000000000000000000000000000000000000000000007f000000000000000000000000000000000000002e,
  0x10101010101010101010101010101000000000000000000000000000000000000000000000000000001000100010001000100000000000000000000000000000000000000000000000000000000000000000000000000000000000000000000000000000000000000000000000000000000000000000000000000000000007f000000000000000000000000000000000000002f,
  0x10101010101010101010101010101000000000000000000000000000000000000000000000000000001000100010001000100000000000000000000000000000000000000000000000000000000000000000000000000000000000000000000000000000000000000000000000000000000000000000000000000000000007f0000000000000000000000000000000000000030,
  0x10101010101010101010101010101000000000000000000000000000000000000000000000000000001000100010001000100000000000000000000000000000000000000000000000000000000000000000000000000000000000000000000000000000000000000000000000000000000000000000000000000000000007f0000000000000000000000000000000000000031,
  0x10000000059020b000000590000020b000000000000000003030202020303020505010101010103030303040203000200010000000023500032002800000000001e001900130010000e000000a4000100000032000000000000000000320000000000281008000000080c701402000000000000000400021002040100a583e1800000080014003545020393009f0047000805050032147f000000ed0000104001ff04042d235f19370a0032,
  0x1000000005a00590000005a0000020b000000000000000002020202020202020505020201010106080203030202000200030000000028500032003200000000001e001900130010000e000000a5000100000032000000000000000000330000000040285808000000080c781402000000000000000400021002040300a583e18300014d0046009545020394009f0047000805050032147f000000ed00001080023204044632783264230033,
  0x800000000006002d00000006000000060000000000000000030202020203020205050202010101080a040606020200020001000000002855003c002800000000001e001900130010000e000000b60001000200340000000000000000003400000000842202100c00042a8c12030200000000000000000000900207000186aba18004002a0028003a42030395007f0065003505050032147f000000d90000004001ff000028285a232d280034,
  0x88000000010d00670000010d0000010d00000000000000000302020202030202050502020101010406030404030300030002000000003255003c002800000000001e001900130010000e000000b80001000200340000000000000000003500000000842202108c00042a8c12030200000000000000000000900207000186aba1830401400064009a42020397007f0065000705050032147f000000d900000080025a00004141733c46410035,
  0x92000000000000003800320000003800000032000000000000000004030302020403030505010101010103030304040302000300020000000032500032003200000000001e001900130010000e0000000000000000003600000000000000000036000000000010002000020004ce13087a0000000000000000000010820880299a8b23801700c400500040420100000021000d000605020032147f000000000000010001be0a0a3241373034320036,
  0x93000000040000003800320000003800000032000000000000000004030302020403030505010101010103030304040302000300020000000032500032003200000000001e001900130010000e0000000000000000003600000000000000000037000000040010002100022004ce1308fa0000000000000000000018820880299a8b23831702fe00aa00af410100000021000d000605020032147f0000000000000200024b0a0a505f554e52500037,
  0x10101010101010101010101010101000000000000000000000000000000000000000000000000000001000100010001000100000000000000000000000000000000000000000000000000000000000000000000000000000000000000000000000000000000000000000000000000000000000000000000000000000000007f0000000000000000000000000000000000000038,
  0x10101010101010101010101010101000000000000000000000000000000000000000000000000000001000100010001000100000000000000000000000000000000000000000000000000000000000000000000000000000000000000000000000000000000000000000000000000000000000000000000000000000000007f0000000000000000000000000000000000000039,
  0x1a80150000001a80000015000000000000000000404040202040404050501010101010404040505030200030002000000002d50003c003200000000001e001900130010000e0000004600000000003a0000000000000000003a000000020440000000a008118d309006000000000000000000209010000003c483a8a00000be0046004645010000009a0012001605050532143f000000000000000401be090932463c2d4637003a,
  0x100000000b301a6000000b3000000ac00000000000000000505040202050504050501010101010404050505020300020002000000002850003c003200000000001e001900130010000e0000004700000000003a0000000000000000003b000000020440040040a00c118d309006000000000000000000229014000003c487a8ab00060e00be00c245010000009a0012001605050532143f0000000000000008024b090950645f506e5a003b,
  0x8e0000000000000037005f000000370000005f000000000000000003030202020303020505020201010103030304040302000300020000000028460028002800000000001e001900130010000e0000000000000000003c0000000000000000003c0000000000100008000020004c11087a0000000000000000000210000020229a8ba08000007c003c003c4101000000210006000b02020332147f000000000000004001ff0a0a28285a283228003c,
  0x8f000000000000003d00f00000003d00000155000000000000000003030202020303020505020201010102020203030301000300030000000028460028002800000000001e001900130010000e0000000000000000003c0000000000000000003d0000000000100008000020004c114c7a00000000000000000002100008202a9a8ba0801300c8006400874101000000210006000b02020332147f000000dd0000008002780a0a32325a414141003d,
  0x9000000040000000df00f0000000df000001550000000000000000050404020205040405050101010101040404050503010003000300000000375f003c003c00000000001e001900130010000e0000000000000000003c0000000000000000003e00000004e0300009022120804c314c7a0000000000000000000218008a212a9a8be08313021c008200ff4101000000210006000b02020332147f000000dd00000030032d010a5a46465f5f5a003e,
  0x1f000000000000000000000000000000000000000000000000000004030302020403030505010101010104040405050000000000000000000032500032003200000000001e001900130010000e0000000000000000003f0000000000000000003f00000000100a202200020162ce1848020000000000000000080011c0f800018683ae403b00c3005a003e4501000000620027001c08080332143f000000f80000010001c80d0d37695a0f1419003f,
  0x20000004000000005e0073000001d900000073000000000000000004030302020403030505010101010103030304040201000200010000000032500032003200000000001e001900130010000e0000000000000000003f0000000000000000004000000000100a202200020166ce1848020000000000000000080011e0f800018683ae403b02350082008c4501000000620027001c08080332143f000000f80000020002640d0d4678691e23280040,
  0x21000004000000005e0073000001d900000073000000000000000004030302020403030505010101010103030304040201000200010000000032500032003200000000001e001900130010000e0000000000000000003f0000000000000000004100000000100e203300020166ce1848020000000000000000080011e0f800118683ae433b01e0009600fa4501000000620027001c08080332143f000000f80000030003320d0d5f87782d32370041,
  0x40000001080007000001080000000700000000000000000503020202050302050501010101010202030404020100020001000000001e460032002800000000001e001900130010000e0000008a000000000042000000000000000000420000000000208001022100804c30e4860000000000000000000298000a010e8687e2803b00c30050003d4701000000500063003e08080332143f000000e60000000401b401012323233250460042,
  0x400000011701530000011700000153000000000000000005030202020503020505010101010102020203030202000200010000000014500032002800000000001e001900130010000e0000008b000000000042000000000000000000430000000000208001022100804c30e4860000000000000004000298000a010e8687e2803b02c10096008e4701000000500063003e08080332143f000000e600000008025a01013c322d4664500043,
  0x40000000df0153000000df000000df00000000000000000402020202040202050502020201010405050505020200020001000000001e500032003200000000001e001900130010000e0000008c0000000000420000000000000000004400000000e0208801022100804c30e486000000000000000400029a000e410e8687e2833b051400a000fd4701000000500063003e08080332143f000000e60000000c032d010155413750825a0044,
  0x10101010101010101010101010101000000000000000000000000000000000000000000000000000001000100010001000100000000000000000000000000000000000000000000000000000000000000000000000000000000000000000000000000000000000000000000000000000000000000000000000000000000007f0000000000000000000000000000000000000045,
  0x10101010101010101010101010101000000000000000000000000000000000000000000000000000001000100010001000100000000000000000000000000000000000000000000000000000000000000000000000000000000000000000000000000000000000000000000000000000000000000000000000000000000007f0000000000000000000000000000000000000046,
  0x10101010101010101010101010101000000000000000000000000000000000000000000000000000001000100010001000100000000000000000000000000000000000000000000000000000000000000000000000000000000000000000000000000000000000000000000000000000000000000000000000000000000007f0000000000000000000000000000000000000047,
  0x2800000000000001e20097000001e200000160000000000000000005040402020504040505010101010104040405050102000100020000000037550037003700000000001e001900130010000e00000000000000000048000000000000000000480000000010104000024020000c5100790000000000000002000036000280209a9ba9000001c7005a004341010000002c0040001d09090532147f000000f50000040001be030a6432462328280048,
  0x2900000080000001e20097000001e200000160000000000000000005040402020504040505010101010104040405050102000100020000000037550037003700000000001e001900130010000e00000000000000000048000000000000000000490000000018104000024020000c5100790000000000000002000036000280209a9ba90300022600a000b441010000002c0040001d09090532147f000000f500000800023c030a7850644146500049,
  0x10101010101010101010101010101000000000000000000000000000000000000000000000000000001000100010001000100000000000000000000000000000000000000000000000000000000000000000000000000000000000000000000000000000000000000000000000000000000000000000000000000000000007f000000000000000000000000000000000000004a,
  0x10101010101010101010101010101000000000000000000000000000000000000000000000000000001000100010001000100000000000000000000000000000000000000000000000000000000000000000000000000000000000000000000000000000000000000000000000000000000000000000000000000000000007f000000000000000000000000000000000000004b,
  0x10101010101010101010101010101000000000000000000000000000000000000000000000000000001000100010001000100000000000000000000000000000000000000000000000000000000000000000000000000000000000000000000000000000000000000000000000000000000000000000000000000000000007f000000000000000000000000000000000000004c,
  0x69000000000000000000ac01e8000000ac000001e800000000000000000303020202030302050501010101010202020303030200030002000000002d50003c003200000000001e001900130010000e0000014d00010001004d0000000000000000004d0000000044480000008008108c109086000000000000000010001000001001c4a3203800012c006400524202039b00310012003205050032147f000000000000004001be090941415a375532004d,
  0x6a000000000100000002ac01e8000002ac000002ac00000000000000000303020202030302050501010101010202020303020300020002000000002850003c002800000000001e001900130010000e0000014e00010001004d0000000000000000004e00000000c4c8000002800810bc109087000000000000000110001000001001c4a3203b0403b600aa00af4202039c00310012003205050032147f0000000000000080023c0909505069466441004e,
  0x100000400000000390119000000390000011900000000000000000605050202060505050501010101010505050606010200010002000000004664003c003c00000000001e001900130010000e0000000000010001004f0000000000000000004f0000000400142020000201468e1a8c7e0000000000000000080210c000a0719e8b2ac00401680078003f4902039d00900014000c02010032147f000001170000000101be0d0a28280f41415a004f,
  0x20000040000000039011900000039000001190000000000000000050404020205040405050101010101040404050501020001000200000000375f003c003c00000000001e001900130010000e0000000000010001004f000000000000000000500000000c00162031000261468e1a8c7e0000000000000000080a10c188a0799e8b2ac317031100a000ac4903039e00900014000c02010032147f000000dd00000020024b0d0a50641e6e4b5f0050,
  0x6900000008000000d10030000000d100000030000000000000000004030302020403030505010101010104040405050303000300030000000032500032003200000000001e001900130010000e00000000000000000051000000000000000000510000000000410040001040000c1003000000008000000000000510000000018603274000003c001e00414701000000940005002a0a0a003214ff000000e90000010001be080c375f2d4623190051,
  0x6a00000008000001b301ae000001b3000001ae000000000000000004030302020403030505010101010103030304040102000100020000000032500032003200000000001e001900130010000e00000000000000000051000000000000000000520000000000410040001040000c18030000000080000000000405100000000186032743000258006400a34701000000940005002a0a0a003214ff000000e900000200023c080c4678465f3c320052,
  0x2000000000e01930000000e0000000e00000000000000000504040202050404050502010101010302020303020300020002000000003250003c003200000000001e001900130010000e000000da00010001005300000000000000000053000000008020000402240018ac1030030000000000000002c000d00001000784c3a01040009600500084450203a000800027003305040032147f0000010300000004022d02003e3a3c375a340053,
  0x10101010101010101010101010101000000000000000000000000000000000000000000000000000001000100010001000100000000000000000000000000000000000000000000000000000000000000000000000000000000000000000000000000000000000000000000000000000000000000000000000000000000007f0000000000000000000000000000000000000054,
  0x10101010101010101010101010101000000000000000000000000000000000000000000000000000001000100010001000100000000000000000000000000000000000000000000000000000000000000000000000000000000000000000000000000000000000000000000000000000000000000000000000000000000007f0000000000000000000000000000000000000055,
  0x10101010101010101010101010101000000000000000000000000000000000000000000000000000001000100010001000100000000000000000000000000000000000000000000000000000000000000000000000000000000000000000000000000000000000000000000000000000000000000000000000000000000007f0000000000000000000000000000000000000056,
  0x10101010101010101010101010101000000000000000000000000000000000000000000000000000001000100010001000100000000000000000000000000000000000000000000000000000000000000000000000000000000000000000000000000000000000000000000000000000000000000000000000000000000007f0000000000000000000000000000000000000057,
  0x10101010101010101010101010101000000000000000000000000000000000000000000000000000001000100010001000100000000000000000000000000000000000000000000000000000000000000000000000000000000000000000000000000000000000000000000000000000000000000000000000000000000007f0000000000000000000000000000000000000058,
  0x10101010101010101010101010101000000000000000000000000000000000000000000000000000001000100010001000100000000000000000000000000000000000000000000000000000000000000000000000000000000000000000000000000000000000000000000000000000000000000000000000000000000007f0000000000000000000000000000000000000059,
  0x83000000000000021600fa00000216000001f800000000000000000504040202050404050501010101010404050505020300020001000000002d5a003c002800000000001e001900130010000e0000009600000000005a0000000000000000005a0000000400000000000040000c18007800000000000000000008100102e8219a8b3100000028001e003d46010000008e005c004b09090532147f000000590058001001be0a0a192d2864411e005a,
  0x8400010000000001f8003a000001f8000001f80000000000000000050403020205040305050202010101050602030301030001000100000000284b003c002800000000001e001900130010000e0000009700000000005a0000000000000000005b0000000400000000024040000c98007800000000000000010008100102e8619a8b330380052d009600b846010000008e005c004b09090532147f0000005900580020023c0e0a2d5546b45f32005b,
  0x2880000000b4006d000000b40000007a00000000000000000303020202030302050502020101010206030303020300020002000000001e50003c003200000000001e001900130010000e0000008d00000000005c0000000000000000005c00000000100a40020600016a0c5009000000000000000000000034c0020000c69fb0003800010082003e46010000001a001a001a0b0b0332147f000000000000010001be03072364501e231e005c,
  0x28800000006d007a0000006d0000007a00000000000000000302020202030202050502020101010203020202020300020002000000001e50003c003c00000000001e001900130010000e0000008e00000000005c0000000000000000005d00000000100a40020600016a4c5009000000000000000000000034c20a0000c69fb00038000100a0008e46010000001a001a001a0b0b0332147f0000000000000200025a030737735f2d322d005d,
  0x2880000000c3005f000000c3000000c30000000000000000030302020203030205050202010101010302020201020001000100000000285a003c001e00000000001e001900130010000e0000008f00000000005c0000000000000000005e00000000100a40130600016a4c504b020000000000000000004034c28a0018c69fb0033b0195009600fa460100000082008200820b0b0332147f0000000000000300032d03074b826e3c413c005e,
  0x1100000001df00ae000001df000000ae000000000000000005060402020506040505010101010102030303030203000200030000000028500028003200000000001e001900130010000e000000b200000000005f0000000000000000005f0000000840809c48401800208c100402000000000000000e00021000024300858771800008340370004d470100000085000500450a0a0032197f0000000000000010012d04052d1e46a02d23005f,
  0x10101010101010101010101010101000000000000000000000000000000000000000000000000000001000100010001000100000000000000000000000000000000000000000000000000000000000000000000000000000000000000000000000000000000000000000000000000000000000000000000000000000000007f0000000000000000000000000000000000000060,
  0x10101010101010101010101010101000000000000000000000000000000000000000000000000000001000100010001000100000000000000000000000000000000000000000000000000000000000000000000000000000000000000000000000000000000000000000000000000000000000000000000000000000000007f0000000000000000000000000000000000000061,
  0x260000000000000216000e00000216000000af000000000000000003030202020303020505010101010102030304040202000200020000000023460032000a00000000001e001900130010000e00000062000000000062000000000000000000620000000400180000100040800c12107300000000000000004008100008a1289a8be0800000410028004140010000007d004b003409090032147f000000000000000401e10a0a1919325a691e0062,
  0x270000000000000098000e000000980000000e000000000000000004030302020403030505010101010102030304040202000200020000000032500032002800000000001e001900130010000e00000063000000000062000000000000000000630000000440180000100040800c12107b00000000000000064008100008a1289a8be083000258008200a640010000007d004b003409090032147f0000000000000008023c0a0a32324b7382370063],
  [0x1010101010101010101010101010100000000000000000000000000000000000000000000000000000100010001000100010000000000000000000000000000000000000000000000000000000000000000000000000000000000000000000000000000000000000000000000000000000000000000000000000000000000ff0000000000000000000000000000000000000064,
  0x1010101010101010101010101010100000000000000000000000000000000000000000000000000000100010001000100010000000000000000000000000000000000000000000000000000000000000000000000000000000000000000000000000000000000000000000000000000000000000000000000000000000000ff0000000000000000000000000000000000000065,
  0xcd00000010000000ca0049000000ca0000005f00000000000000000504040202050404050501010101010404040505020200020002000000003755003c003c00000000001e001900130010000e00000000000000000066000000000000000000660000000000002082080001080c5008010000000000000000010010401004008493b6080000190028004149010000008b0022002207070532147f0000037200000010015a0d0b2d3c2850283c0066,
  0xce00000411000001920049000001920000005f000000000000000004030302020403030505010101010103030304040202000200020000000032500032003200000000001e001900130010000e000000000000000000660000000000000000006700000000000020a20802010c0e5008810000000000000004010210601004008493b60f0004b000c800ba420203a3008b0022002207070532147f0000000000000200022d0d0b4b7d37555f5f0067,
  0xaa000001000000009b002d0000009b0000002d00000000000000000504040202050404050501010101010404040505020200020002000000003755003c003c00000000001e001900130010000e00000000000000000068000000000000000000680000000000001408000040088c10a4e7000000000000000640029000080109858be1802b004100280040450100000004001f004501010032147f000001020000001001be04043228235f32320068,
  0xab000001000000009b00740000009b000000740000000000000000050404020205040405050101010101040404050503010003000100000000375f003c003c00000000001e001900130010000e00000000000000000068000000000000000000690000000080001c09000040088d10a4e7000000000000000640029000080109858be1832b01c200640095450203a40004001f004501010032147f0000010200000020024b040450322d6e503c0069,
  0x40000000b300aa000000b3000000b3000000000000000005040302020504030505020101010103020203030202000200020000000014500028001e00000000001e001900130010000e0000006c0000000000ec0000000000000000006a0000000080200801032102880c30648200000000000000040002980008110f8683e0000301f20096009f450100000054007800070808003219000000000000000008022d01016e2357357832006a,
  0x4000000008026400000008000002640000000000000000050404020205040405050202010101030403030303020003000200000000144b0028003200000000001e001900130010000e0000006d0000000000ec0000000000000000006b0000000080200801012100080c10748200000000000000000002980088010f8683e0003b01f6008c009f450100000027005900330808003219000000000000000800022d01016e234c4f6932006b,
  0x3600010001000001b60032000001b60000003000000000000000000605050202060505050501010101010505050606030200030002000000004664003c003c00000000001e001900130010000e0000000000000000006c0000000000000000006c0000000800200120000020028c12877f00000000000000060002900008010a978be18b3b028f0078004d49010000000d000c001401010032147f0000011700000002012d00004b3c1e4b375a006c,
  0x80000000bc005c000000bc0000008b000000000000000005040402020504040505010101010104050506060303000300020000000028500032003200000000001e001900130010000e000000fa00000000006d0000000000000000006d00000000080040000450002a0c508304000000000000000000001400060000c683b10000000a003c00444601000000010100001a0b0b0032147f000000e40000001001be03032d3c235f4128006d,
  0x80000001010072000001010000006c00000000000000000505040202050504050501010101010304040505030200030002000000003250003c002800000000001e001900130010000e000000fb00000000006d0000000000000000006e00000000080040000450003a0c508304000000000000000000001400060000c683b10300005f007800ac460203a500010100001a0b0b0032147f000000e400000020023c030346553c785a41006e,
  0xb70000010000000059001e000000590000001e00000000000000000404030202040403050501010101010303030404020200020002000000001446003c003200000000001e001900130010000e0000010800000000006f0000000000000000006f0000000040801808420000899c30876700000000000000050002101c026100878fe08000047e006400454701000000780045001f05010532147f0000000000000010017805041e1e195f5550006f,
  0xb8000011000000005901bc00000059000001bc0000000000000000050403020205040305050101010101020303040402030002000300000000325a0032001e00000000001e001900130010000e0000010900000000006f000000000000000000700000000841809809420040899d30877f000000000000000f0002101f0a610a978fe0833f04b000be00aa4701000000780045001f05010532147f0000000000000008023c05042d2d287882690070,
  0x7000000000000017f00cc0000017f000000ba00000000000000000605050202060505050501010101010505050606020200020002000000004664003c003c00000000001e001900130010000e000000000000000000710000000000000000007100000000106c30200002050a8c18cf6600000000000000040002900088010a8fab6a4b3b015a006e018b4901000000830020001e0606048c28fe0000000000000002021e00006923320505fa0071,
  0x5000000010000001b600f6000001b6000000f60000000000000000050404020205040405050101010101040404050503020003000200000000375f003c003c00000000001e001900130010000e00000000000000000072000000000000000000720000000000002182080000000c5200030000000000000000010010001004008493a40b00015e006400574101000000900066002207070032147f0000000000000010012d0b0b28643c7337410072,
  0xac00000001000001ca0074000001ca0000002d00000000000000000605050202060505050501010101010505050606030100030003000000004664003c003c00000000001e001900130010000e000000000000000000730000000000000000007300000000002000010000000b8d30a7fe0000000000000000000290038c010abf8be88b3b032000dc00ac450100000027007100300101003214fe0000000000000002022d000050285a505f690073,
  0xc600004004000000ef006c000000ef0000006c000000000000000004030302020403030505010101010104040405050302000300020000000032500032003200000000001e001900130010000e00000000000000000074000000000000000000740000000400100040400820000d1130780000000000000000000010000090219a8b20000000500028003b410100000006006100210e020032147f000000eb0000010001e10a0a19463c46281e0074,
  0xc7000040040000019600610000019600000061000000000000000004030302020403030505010101010103030304040301000300010000000032500032003200000000001e001900130010000e00000000000000000074000000000000000000750000000400100040400820000d1130780000000000000000000010000090219a8b20030000fa0078009a410100000006006100260e020032147f000000eb00000110024b0a0a2d5f555f41370075,
  0x5e0000400400000188003000000188000000300000000000000000030303020203030305050202010101040603030301020001000200000000325a003c003200000000001e001900130010000e00000092000000000076000000000000000000760000000080900000020020001c11107b0000000000000001000010000030219a8b2000000096003c004040010000001f002900210c0c0032147f000000f30000000401e10a0a32233f3c432d0076,
  0x5f000040040000007f01880000007f0000007f00000000000000000303020202030302050502020101010103030303020100020002000000002850003c002800000000001e001900130010000e00000093000000000076000000000000000000770000000080900000020020001c11107b0000000000000001000010000030219a8b20030001860082009e40010000001f002900210c0c0032147f000000f300000008023c0a0a504144415c500077,
  0x62000000040000003900710000003900000081000000000000000003030202020303020505020201010102020203030101000100010000000028460028002800000000001e001900130010000e00000000000000000078000000000000000000780000000010100040801010000c190b780000000000000000000010000080219a0b264000015900500044450100000094001e00230909053214ff0000005b005a004001e10a0a374655372d1e0078,
  0x63000014040000003900710000003900000081000000000000000003030202020303020505020201010102020203030101000100010000000028460028002800000000001e001900130010000e00000000000000000078000000000000000000790000000010182040801011400e191b780000000000000000000010e10080219a0b2643000320006e00b6460100000094001e00230909053214ff0000005b005a0080023c0d0a556473554b3c0079,
  0xb0000000004000000025d00db0000025d0000007100000000000000000605050202060505050501010101010404050505030100030001000000002350003c003200000000001e001900130010000e0000016d00010001007a0000000000000000007a00000000100e20330002416e6e104b0200000000000000001a0011c0ba000a86abae4f3b0221008200a1490203a60065006f002b08080032197f0000000000000800022d110d78645a412d28007a,
  0x760000020000000194000e0000000e0000019400000000000000000403030202040303050501010101010303030404030100010003000000002d550037003700000000001e001900130010000e0000000000000000007b0000000000000000007b0000000000000000300000002c3030010000000000000002c000522005000986c3aa03000230009600644301000000500065004403030032197f0000000000000004012d0206503769506e46007b,
  0xe0000000004200000003b005e0000003b0000005e000000000000000004030302020403030505010101010103030304040102000100020000000032500032003200000000001e001900130010000e000000000000000000ee0000000000000000007c00000000000c20330002056e4e1048620000000000000000088011e18a088a8aaba603130196008c009f400100000057006c000c0808003219fe0000000000000200022d0d0e5f735f233241007c,
  0x10000000000008000001b30009000001b300000009000000000000000003030202020303020505020201010102020203030102000100020000000028460028002800000000001e001900130010000e000000000000000000ef0000000000000000007d0000000000410001000000088c100b8200000000000000000005180008000b8283a3433b012c006e00ac4201000000480009000908080032193f0000014200000080022d0c0c555f69395341007d,
  0x13000000000102000001b40007000001b400000007000000000000000004040302020404030505010101010103030304040102000100020000000032500032003200000000001e001900130010000e000000000000000000f00000000000000000007e0000000000000001008008188c10a88600000000000000000000180018000ac487a1232b01bd008200ad4001000000480031003108080032193f0000014300000200022d090955645d395f41007e,
  0x7800000000000001e0000c0000000c000001e000000000000000000403030202040303050501010101010303030404030200020003000000002d550037003700000000001e001900130010000e0000000000000000007f0000000000000000007f00000000c0001801102140800c30240300000000000000024002100008010e8683e083000226009600af4501000000990068003403030532197f0000000000000008022d0606463755647d41007f,
  0x74000080000000017400270000017400000027000000000000000003030202020303020505020201010102020203030203000200030000000028460028002800000000001e001900130010000e000000000000000000800000000000000000008000000000c0600c20002000089d308776000000000000000500029000060106978f600b000374008c00ac45010000007d005300160505053214000000000000000044022d000046286e5f644b0080,
  0x3e002a00000000000000af0096000000af000000960000000000000000060101020206010105050101010101060608080a020100020001000000001e640050006400000000001e001900130010000e00000090000000000081000000000000000000810000000000000000000000000000000800000000000000000000000000100000000000000064005a002840010000009b002100210e0c0532057f000000000000004001ff0a0a140f50370a140081,
  0x3f002b0000c00000000038015d000000380000015d00000000000000000404040202040404050502020101010103020303020300020001000000001e50003c003200000000001e001900130010000e00000091000000000081000000000000000000820000000002100d00440820298d11877e0000000000000002000210090290209b8f204300092e028a00bd410100000099001600160e0c0532057f0000000000000008022d020a643c514f7d5f0082,
  0xbe0000000000000000031700c400000317000000c30000000000000000050504020205050405050101010101040506060602020002000100000000325a003c001e00000000001e001900130010000e00000169000000000083000000000000000000830000000c00800420400804049d110b7a0000000000000001000210010080629aab280300089800fa00bb41010000005d004b000b02010532287f000000f300f30002022d0e0a5f553c5055820083,
  0xcf00000000000000000000000000000000000000000000000000000605050202060505050501010101010203030404000000000000000000001e3c0028001e00000000001e001900130010000e00000175000000000084000000000000000000840000000000000000000000000000000000000000000000000000000000000000000000000028001e0065460100000096000700070d0d003214ff0000010101120001022300003030303030300084,
  0x4a0000000000000000001c00cc0000001c000000cc00000000000000000504030202050403050502010101010204040404030200030002000000002850003c003200000000001e001900130010000e000000c400000000008502be0183000000000085000000000024000000000402ac1020020000000000000000000090000000c386a32080040041001e004145010000006b005b003205050032231f0000000000000400012d0000412d373237370085,
  0x4b0000000000040000014a01880000014a0000018800000000000000000404040202040404050501010101010303040404020100020001000000003250003c003200000000001e001900130010000e000000c500000000008500000000000000000086000000040034000000002402ac11207a0000000000000000000090000080e39eab2083040122006400b841010000005d000b000b05050032231f0000000000000002022d0a0a5f6e413c41820086,
  0x4c0000000000080000005701b300000057000001b3000000000000000003030202020303020505020201010104060404040202000200020000000028500032002800000000001e001900130010000e000000c600000000008500000000000000000087000000000065000000000402ac1033020000000000000000000190040000c386a322c38400f5005000b842010000005f000a000a05050032231f0000000000000080022d0c0c5f6e823c41410087,
  0x4d0000000001020000018a01b40000018a000001b400000000000000000504040202050404050501010101010304040404020200020002000000001450003c002800000000001e001900130010000e000000c700000000008500000000000000000088000000000024000000800c92ac10a0060000000000000000100090100000c3c6a720a30400fa005a00b840010000003e0012001205050032231f0000000000000008022d09096e5f413c82410088,
  0xd0000000000000005400a000000054000000a0000000000000000004030302020403030505010101010104040405050301000300010000000032500032003200000000001e001900130010000e000000000000000000890000000000000000008900000000000a0020000000428e181b600000000000000000200410c0700001860ba04b00016d0050004f490100000094005800240a0a003214ff0000000000000100012d00004b5528463c410089,
  0x7b0000000010000000016a0039000000390000016a0000000000000000050404020205040405050101010101040404050502010001000200000000375f003c003c00000000001e001900130010000e0000000000000000008a0000000000000000008a0000000000101008005060000c91007a00000000000000000000100000e1209b8be00000004b00280047410100000085004b0021090200321e1f0000000000000010012d0a05375a23642823008a,
  0x7c0000000010000000016a0039000000390000016a0000000000000000050404020205040405050101010101040404050502010001000200000000375f003c003c00000000001e001900130010000e0000000000000000008a0000000000000000008b0000000400101808005060010c91007a00000000000000000000100000e1209b8be00380015e006400ad410100000085004b0021090200321e1f0000000000000020022d0a054673377d3c46008b,
  0x7d000000001000000002c6008d0000008d000002c60000000000000000050404020205040405050101010101040404050503020002000300000000375f003c003c00000000001e001900130010000e0000000000000000008c0000000000000000008c0000000400101808000040000c15007a00000000000000000000100000e1009b9be1800000730032004745010000008500040021090200321e1f0000000000000010012d0a052d37375a501e008c,
  0x7e000000001004000002c6008d0000008d000002c600000000000000000403030202040303050501010101010303030404030200020003000000002d550037003700000000001e001900130010000e0000000000000000008c0000000000000000008d0000000400101808100040800c1500fb00000000000000000008122000e1289b9be183020195008200ad45010000008500040021090200321e1f0000000000000008022d0a0546415069733c008d,
  0x7f0000000012000000009d00300000009d00000030000000000000000003030202020303020505020201010102020203030103000100030000000028460028002800000000001e001900130010000e0000000000000000008e0000000000000000008e0000000202001c08400880318c10940400000000000000020002101c06410187c7e00340024e00b400b446010000007f002e004504040532231f0000000000000080022d02054b3c82416950008e,
  0xad000000010001000000220119000000220000011900000000000000000504030202050403050501010101010404050505020200020002000000002850003c003200000000001e001900130010000e0000010500000000008f02bd01a000000000008f00000008616086210800048b4d12cf7e00000000000000040002900008010897ab710b3f11f800d200bd440100000052002f001101010532281f000000ea00ea0002021900006e411e416ea0008f,
  0xca000000000220000000000000000000000000003b000000000000000002020502020505050505010101010100000300000000000000010000000000000000002800000000000a000a0013000a000a00000000000000000090000000000000000000900000000002000004000000000c1010600000000000000000800010010108418f4b240340022a00aa0122410203a70051002e002e0f0f052350ff0000000000000c000303020e7d5f5564555a0090,
  0xcb00000000020800000000000000000000000001b3000000000000000002020502020505050505010101010100000300000000000000010000000000000000002800000000000a000a0013000a000a00000000000000000091000000000000000000910000000002400004000000102c1013000000000000000000200110000100418f43224340020e00a00122420203a80009002e002e0f0f052350ff00000000000003000303020c5a7d64555a5a0091,
  0xcc0000000003020000000000000000000000000101000000000000000002020502020505050505010101010100000300000000000000010000000000000000002800000000000a000a0013000a000a00000000000000000092000000000000000000920000000002000004008008100c109004000000000000000090001000010041c743282b40025800c80122420203a90031002e002e0f0f052350ff000000000000030003030209557d5a5a645a0092,
  0xc2000000004000000000ef0056000000ef0000005600000000000000000403030202040303050501010101010404040505030200030002000000002d550037003700000000001e001900130010000e00000000000000000093000000000000000000930000000000000000400800008d11937e000000400000000a000010000000019e8b2a6300002100b4003c41010000003f003d003d0e020523287f000000eb00000004012d0f0f3232322d40290093,
  0xc300000000400000000197015d000001970000015d00000000000000000403030202040303050501010101010303030404030200030002000000002d550037003700000000001e001900130010000e00000000000000000093000000000000000000940000000000000000400800008d11937e000000400000000a000010000000019e8b2a630000a50190009341010000003f003d003d0e020523287f000000eb00000008022d0f0f46464641543d0094,
  0xc400000000420000000197015d000001970000015d00000000000000000403030202040303050501010101010303030404030200030002000000002d550037003700000000001e001900130010000e00000000000000000093000000000000000000950000000802000c01400880908d11977e000000400000000a800210000801299fcb6a637b083400dc012c450100000088002700270e020523287f000000eb0000000c032d020f6464505f865b0095,
  0x4000000021c00320000021c0000021c00000000000000000606050202060605050502010101010101030202030200030002000000003c64003c002800000000001e001900130010000e000000000000000000960000000000000000009600000000020f2833030301668e1adfe60000000000000002080219e1f80129cf0b7e4b3f04c400c8015446010000007f002e002e0f0f050078ff000000000000030003030d0d5a9a825a6e6a0096,
  0x3ffff00000317005e00000317000001a1000000000000000007060502020706050505020201010101010101010202000200020000000032640046004b00000000001e001900130010000e0000000000000000009702bf005e0000000000970000000fffffffffffffffffffffffff000000000000000fffffffffffffffffffffffff00280028012c49010000001c001c001c0f0f036478ff0000009d009d0003032d0d0d6464646464640097,
  0x10101010101010101010101010101000000000000000000000000000000000000000000000000000001000100010001000100000000000000000000000000000000000000000000000000000000000000000000000000000000000000000000000000000000000000000000000000000000000000000000000000000000001f0000000000000000000000000000000000000098,
  0x10101010101010101010101010101000000000000000000000000000000000000000000000000000001000100010001000100000000000000000000000000000000000000000000000000000000000000000000000000000000000000000000000000000000000000000000000000000000000000000000000000000000001f0000000000000000000000000000000000000099,
  0x10101010101010101010101010101000000000000000000000000000000000000000000000000000001000100010001000100000000000000000000000000000000000000000000000000000000000000000000000000000000000000000000000000000000000000000000000000000000000000000000000000000000001f000000000000000000000000000000000000009a,
  0x10101010101010101010101010101000000000000000000000000000000000000000000000000000001000100010001000100000000000000000000000000000000000000000000000000000000000000000000000000000000000000000000000000000000000000000000000000000000000000000000000000000000001f000000000000000000000000000000000000009b,
  0x10101010101010101010101010101000000000000000000000000000000000000000000000000000001000100010001000100000000000000000000000000000000000000000000000000000000000000000000000000000000000000000000000000000000000000000000000000000000000000000000000000000000001f000000000000000000000000000000000000009c,
  0x10101010101010101010101010101000000000000000000000000000000000000000000000000000001000100010001000100000000000000000000000000000000000000000000000000000000000000000000000000000000000000000000000000000000000000000000000000000000000000000000000000000000001f000000000000000000000000000000000000009d,
  0x10101010101010101010101010101000000000000000000000000000000000000000000000000000001000100010001000100000000000000000000000000000000000000000000000000000000000000000000000000000000000000000000000000000000000000000000000000000000000000000000000000000000001f000000000000000000000000000000000000009e,
  0x10101010101010101010101010101000000000000000000000000000000000000000000000000000001000100010001000100000000000000000000000000000000000000000000000000000000000000000000000000000000000000000000000000000000000000000000000000000000000000000000000000000000001f000000000000000000000000000000000000009f,
  0x10101010101010101010101010101000000000000000000000000000000000000000000000000000001000100010001000100000000000000000000000000000000000000000000000000000000000000000000000000000000000000000000000000000000000000000000000000000000000000000000000000000000001f00000000000000000000000000000000000000a0,
  0x10101010101010101010101010101000000000000000000000000000000000000000000000000000001000100010001000100000000000000000000000000000000000000000000000000000000000000000000000000000000000000000000000000000000000000000000000000000000000000000000000000000000007f00000000000000000000000000000000000000a1,
  0x10101010101010101010101010101000000000000000000000000000000000000000000000000000001000100010001000100000000000000000000000000000000000000000000000000000000000000000000000000000000000000000000000000000000000000000000000000000000000000000000000000000000007f00000000000000000000000000000000000000a2,
  0x20000000073002d000000730000002d00000000000000000303020202030302050501010101010202030303010200010001000000002850003c003200000000001e001900130010000e000000130000000000a3000000000000000000a300000000022400300002041a0c12180000000000000000008000100000001186c3a5004000d40046003445010000006e0033000f040400320f7f000000000000000101ff02003824321e1e3c00a3,
  0x2000000005f00730000005f0000007300000000000000000404030202040403050502010101010402030303020100020001000000002850003c003200000000001e001900130010000e000000140000000000a3000000000000000000a400000000022400300002041e0c12180000000000000000008000100000001186c3a50340019800a0009e45010000006e0033000f040400320f7f0000000000000002025a020060564632326400a4,
  0x10101010101010101010101010101000000000000000000000000000000000000000000000000000001000100010001000100000000000000000000000000000000000000000000000000000000000000000000000000000000000000000000000000000000000000000000000000000000000000000000000000000000007f00000000000000000000000000000000000000a5,
  0x10101010101010101010101010101000000000000000000000000000000000000000000000000000001000100010001000100000000000000000000000000000000000000000000000000000000000000000000000000000000000000000000000000000000000000000000000000000000000000000000000000000000007f00000000000000000000000000000000000000a6,
  0x10101010101010101010101010101000000000000000000000000000000000000000000000000000001000100010001000100000000000000000000000000000000000000000000000000000000000000000000000000000000000000000000000000000000000000000000000000000000000000000000000000000000007f00000000000000000000000000000000000000a7,
  0x10101010101010101010101010101000000000000000000000000000000000000000000000000000001000100010001000100000000000000000000000000000000000000000000000000000000000000000000000000000000000000000000000000000000000000000000000000000000000000000000000000000000007f00000000000000000000000000000000000000a8,
  0x9200000000020000000193013a000001930000013a000000000000000003030202020303020505020201010102020203030301000300010000000028460028002800000000001e001900130010000e00000000000000000029000000000000000000a9000000000a0000341400003b0c54100000000000000000008000760007000186d3a1034002ee00b4010c46010000009700270027040400320f7f00000000000000c0035a0203504682505a5500a9,
  0xbc00000008000001b3006d000001b3000001b300000000000000000403030202040303050501010101010202020303030200030003000000003250003c001e00000000001e001900130010000e000000dc0000000000aa000000000000000000aa0000000010510000000000000c1313780000000000000000000110000090209a8b21400000780032004241010000000b0023000a0c0c0532147f000000000000000101be0c0a38384326264b00aa,
  0xbd00000008000001b3006d000001b3000001b300000000000000000404030202040403050501010101010202020203030300030002000000003255003c002800000000001e001900130010000e000000dd0000000000aa000000000000000000ab0000000010510000000000000c1313780000000000000000200110000090209a8b21430000e1007800a141010000000b0023000a0c0c0532147f0000000000000002024b0c0a4c4c433a3a7d00ab,
  0x5400000000000000540261000000540000026100000000000000000302020202030202050502020101010406040404030200030002000000002850003c003200000000001e001900130010000e000000c10000000000ac000000000000000000ac000000000440201000000008cc30031200000000000000000405100008000382a32640230014001e002942010000001f000900090f0f00320a7f000000000000004001be0c0c23233c0f281400ac,
  0x2b0000000000000000023e00ba0000023e0000023e00000000000000000303030202030303050501010101010505050606020300020002000000001e4b0032002800000000001e001900130010000e000000fe0000000000ad000000000000000000ad00000000042420200000044ace12c80600000000000000000280108008008286ab2ecc03001e001e002c490100000084006200380f0f048c0abf000000510000040001961111372d0f1c193200ad,
  0xb000000000000023e00ba0000023e000000ba00000000000000000605050202060505050501010101010606060707020200020002000000004664003c003c00000000001e001900130010000e000000000000000000ae000000000000000000ae00000000046020000000040a0c10880600000000000000000280100008108286ab2fc803000a001e002a49010000008400ac00380f0f04320abf000000000000000101aa110014280f0f1e5a00ae,
  0xcc0119000000cc0000011900000000000000000505030202050503050502010101010202030303020200020002000000003264003c003200000000001e001900130010000e000001010000000000af000000000000000000af00000000142420300000044e6e18c80600000000000000001080100008000386a32e4803000f001e0031480100000069002000370f0f04320a1f000000000000040001be111141281441142300af,
  0x20000000248011900000248000000ba0000000000000000040403020204040305050101010101020203030302020002000200000000325a0032003200000000001e001900130010000e000001020000000000af000000000000000000b000000000142420300000045e6e18c80600000000000000011080900088001b86e32e4f430020003c008e48010000006900200037060404320a1f0000000000000800024b021169502855283700b0,
  0x6000000006d002b0000006d0000006d0000000000000000040303020204030305050101010101030304040403030003000200000000284b003c002800000000001e001900130010000e0000005c0000000000b1000000000000000000b100000000100c2020000211562e10080000000000000000008000114031001186d3a6480000140014004043010000009c0030001c04040032147f000000000000010001be020d2d46462d322800b1,
  0x60000000193016e000001930000006d00000000000000000403030202040303050501010101010303030404020100020002000000003250003c003200000000001e001900130010000e0000005d0000000000b1000000000000000000b200000000100e2020000211562e10080000000000000000008000114031001186d3a64b400096009600a543010000009c0030001c04040032147f0000000000000140024b020d465f5f464b4100b2,
  0x10101010101010101010101010101000000000000000000000000000000000000000000000000000001000100010001000100000000000000000000000000000000000000000000000000000000000000000000000000000000000000000000000000000000000000000000000000000000000000000000000000000000007f00000000000000000000000000000000000000b3,
  0x10101010101010101010101010101000000000000000000000000000000000000000000000000000001000100010001000100000000000000000000000000000000000000000000000000000000000000000000000000000000000000000000000000000000000000000000000000000000000000000000000000000000007f00000000000000000000000000000000000000b4,
  0x10101010101010101010101010101000000000000000000000000000000000000000000000000000001000100010001000100000000000000000000000000000000000000000000000000000000000000000000000000000000000000000000000000000000000000000000000000000000000000000000000000000000007f00000000000000000000000000000000000000b5,
  0x10000000ca023c000000ca0000024900000000000000000303030202030303050502010101010403030404020200020002000000002850003c002800000000001e001900130010000e0000003a00000000002b000000000000000000b60000000014002082080400082c50000100000000000000000100140088040284b3280f00003a002800f54301000000830022002207070332147f0000022100000c00032d0b0b645a325f504b00b6,
  0x8c00030000000001910027000000270000019100000000000000000605050202060505050501010101010505050606030200020003000000004664003c003c00000000001e001900130010000e000000000000000000b7000000000000000000b700000000043020000000248ccc13007a0000000000000002028010000830ab9aab22801300550028005841010000009d0025002f060204320a7f000000000000000202be110a32142832144600b7,
  0x8d00030000000001910027000000270000019100000000000000000605050202060505050501010101010505050606030200020003000000004664003c003c00000000001e001900130010000e000000000000000000b7000000000000000000b800000004043020010000248ccc13007a0000000000000002028210000830ab9aab228313011d005000d241010000009d0025002f060204320a7f0000000000000003034b110a503c3250326400b8,
  0x1000000000af017f000000af0000017f000000000000000005050402020505040505020101010104030304040202000200020000000028640050003200000000001e001900130010000e000000fd0000000000b9000000000000000000b90000000800021808000240280c10048200000000000000040002100008438a8583f0803b017c0078009045010000009b004500050a0a0032147f000000000000002002410505411e1e73644600b9,
  0x91000000000000003801300000003800000155000000000000000005040402020504040505010101010104040405050301000300030000000037550037003700000000001e001900130010000e0000000000000000003c000000000000000000ba0000000400100009000024084c114c7a0000000000000000000210000a306a9a8ba183130153006e00fa4301000000020006000b02020332147f000000dd00000c00032d0a0a645a464b4b5a00ba,
  0x10101010101010101010101010101000000000000000000000000000000000000000000000000000001000100010001000100000000000000000000000000000000000000000000000000000000000000000000000000000000000000000000000000000000000000000000000000000000000000000000000000000000007f00000000000000000000000000000000000000bb,
  0x10101010101010101010101010101000000000000000000000000000000000000000000000000000001000100010001000100000000000000000000000000000000000000000000000000000000000000000000000000000000000000000000000000000000000000000000000000000000000000000000000000000000007f00000000000000000000000000000000000000bc,
  0x10101010101010101010101010101000000000000000000000000000000000000000000000000000001000100010001000100000000000000000000000000000000000000000000000000000000000000000000000000000000000000000000000000000000000000000000000000000000000000000000000000000000007f00000000000000000000000000000000000000bd,
  0x10101010101010101010101010101000000000000000000000000000000000000000000000000000001000100010001000100000000000000000000000000000000000000000000000000000000000000000000000000000000000000000000000000000000000000000000000000000000000000000000000000000000007f00000000000000000000000000000000000000be,
  0x10101010101010101010101010101000000000000000000000000000000000000000000000000000001000100010001000100000000000000000000000000000000000000000000000000000000000000000000000000000000000000000000000000000000000000000000000000000000000000000000000000000000007f00000000000000000000000000000000000000bf,
  0x10101010101010101010101010101000000000000000000000000000000000000000000000000000001000100010001000100000000000000000000000000000000000000000000000000000000000000000000000000000000000000000000000000000000000000000000000000000000000000000000000000000000007f00000000000000000000000000000000000000c0,
  0x10101010101010101010101010101000000000000000000000000000000000000000000000000000001000100010001000100000000000000000000000000000000000000000000000000000000000000000000000000000000000000000000000000000000000000000000000000000000000000000000000000000000007f00000000000000000000000000000000000000c1,
  0x3a00000000000001550036000001550000015500000000000000000303030202030303050501010101010404050606010100010002000000003c640050001e00000000001e001900130010000e000000640000000000c2000000000000000000c2000000000010400800002000cc53047a0000000000000004200210002020209b8b28801000550028002a41010000006d000b000605020032147f000000000000000101ff040a19190f2d2d3700c2,
  0x3b000000000000014a00850000014a0000014a00000000000000000505040202050504050501010101010303040505020200020002000000003c5a0050002800000000001e001900130010000e000000650000000000c2000000000000000000c3000000044010480900002000cc53047a0000000000000004200210002821289b8be8831302ee008c009741010000006d000b000605020032147f0000000000000002025a040a41412355555f00c3,
  0x4f0000000004000000005e00cc0000005e0000003c00000000000000000504040202050404050501010101010202020303030200030002000000003255003c002800000000001e001900130010000e000000c8000000000085000000000000000000c400000002102c202000020546ae1028020000000000000000000091401000c386a32683040109005a00b846010000009c001c001c05050032231f0000000000000200022d0d0d5f826e3c414100c4,
  0x4e00000000800000000174022b000001740000022b00000000000000000505050202050505050501010101010303040404020300020002000000003255003c002d00000000001e001900130010000e000000c9000000000085000000000000000000c5000000008026000004000423ac1028020000000000000000002090802600c386a3a18304010e006400b8440100000027001c001c05050023231f0000000000000800022d1010823c416e415f00c5,
  0x10101010101010101010101010101000000000000000000000000000000000000000000000000000001000100010001000100000000000000000000000000000000000000000000000000000000000000000000000000000000000000000000000000000000000000000000000000000000000000000000000000000000007f00000000000000000000000000000000000000c6,
  0x3000004000000003901190000003900000119000000000000000005040402020504040505010101010104040405050102000100020000000037550037003700000000001e001900130010000e0000000000010001004f000000000000000000c70000000400162031800261468e1a8c7e0000000000000000080a10c188a0799e8b2ac317031b00c800ac490203aa00900014000c02010032147f000000dd0000080002460d0a6e641e504b5f00c7],
  [0x10101010101010101010101010101000000000000000000000000000000000000000000000000000001000100010001000100000000000000000000000000000000000000000000000000000000000000000000000000000000000000000000000000000000000000000000000000000000000000000000000000000000007f00000000000000000000000000000000000000c8,
  0x1010101010101010101010101010100000000000000000000000000000000000000000000000000000100010001000100010000000000000000000000000000000000000000000000000000000000000000000000000000000000000000000000000000000000000000000000000000000000000000000000000000000000ff00000000000000000000000000000000000000c9,
  0xf30044000000f3000000db00000000000000000505040202050504050501010101010305060606020200020001000000003264003c006400000000001e001900130010000e000000d90000000000ca000000000000000000ca000000000000000000000000400200000000000000000000000000000000000020080000011d0082008e41010000008c001700170b0b0032147f0000000000000002022d0d0d3a21213a21be00ca,
  0x10101010101010101010101010101000000000000000000000000000000000000000000000000000001000100010001000100000000000000000000000000000000000000000000000000000000000000000000000000000000000000000000000000000000000000000000000000000000000000000000000000000000007f00000000000000000000000000000000000000cb,
  0x10101010101010101010101010101000000000000000000000000000000000000000000000000000001000100010001000100000000000000000000000000000000000000000000000000000000000000000000000000000000000000000000000000000000000000000000000000000000000000000000000000000000007f00000000000000000000000000000000000000cc,
  0x10101010101010101010101010101000000000000000000000000000000000000000000000000000001000100010001000100000000000000000000000000000000000000000000000000000000000000000000000000000000000000000000000000000000000000000000000000000000000000000000000000000000007f00000000000000000000000000000000000000cd,
  0x3400004a01000000f601e9000001e9000000f600000000000000000605050202060505050501010101010505050606020200020002000000004664003c003c00000000001e001900130010000e000000000000000000ce000000000000000000ce0000000000c4102002120002ac12976600000000000000048002b0000001028683e1c800008c0096009142010000009b0032002005050032147f000000000000000102be000041412d46466400ce,
  0x10101010101010101010101010101000000000000000000000000000000000000000000000000000001000100010001000100000000000000000000000000000000000000000000000000000000000000000000000000000000000000000000000000000000000000000000000000000000000000000000000000000000007f00000000000000000000000000000000000000cf,
  0x111000000009d00ae0000009d000000ae00000000000000000605050202060505050501010101010202030303020200020002000000002855003c003200000000001e001900130010000e000000b300000000005f000000000000000000d00000000a40809c48441840218c100402000000800000000e0002101c02430085877183000fa0039800b347010000007d000500450a0a0032197f000000e9000000200219040841371ec8554b00d0,
  0x1010101010101010101010101010100000000000000000000000000000000000000000000000000000100010001000100010000000000000000000000000000000000000000000000000000000000000000000000000000000000000000000000000000000000000000000000000000000000000000000000000000000000bf00000000000000000000000000000000000000d1,
  0x1010101010101010101010101010100000000000000000000000000000000000000000000000000000100010001000100010000000000000000000000000000000000000000000000000000000000000000000000000000000000000000000000000000000000000000000000000000000000000000000000000000000000bf00000000000000000000000000000000000000d2,
  0x140000000011700fe00000117000000fe00000000000000000303020202030302050501010101010202020304020100020001000000003250003c003200000000001e001900130010000e000001300000000000d3000000000000000000d30000000488104000025000220cf100790000000000000000000034000690259a8f304080002700320058470100000016002100260c0c0032147f000000f500000004012d030a373755555f4100d3,
  0x7700000200000001ba000e0000000e000001ba00000000000000000403030202040303050501010101010303030404030100010003000000002d550037003700000000001e001900130010000e0000000000000000007b000000000000000000d40000000000000440300040802c3030010000008000000002c00056200d020987c3aa0300049c00b400af4001000000870065004403030032197f00000000000000080219080650374164824600d4,
  0xaa0000000118000000009d017c0000009d0000009d00000000000000000706060202070606050501010101010202030303020200020002000000003264003c003200000000001e001900130010000e000000e30000000000d5000000000000000000d50000000000005808001040004c700402000000000000000000021400006302858368800000cd003c00b142010000007e0052000503030332147f0000002b002b041002be0506e60a05e60a1400d5,
  0x7900000040000000e0000e0000000e000000e000000000000000000403030202040303050501010101010303030404030100010003000000002d550037003700000000001e001900130010000e000000000000000000d6000000000000000000d600000000c0200801002140001cb004830000000000000003400294020c450e8683e08380021c009600af410100000099003e004403030532197f0000000000000008022d01065f28554b7d5000d6,
  0x1c000000008020000000e801d4000000e8000001d400000000000000000303020202030302050502020201010606080303030200030002000000002850003c003200000000001e001900130010000e000001240000000000d7000000000000000000d70000000080020000160200228c1010f10000000000000000402098230a0089be8ba580130118005a005644010000007c0033002705050323147f000000d900000040013c0e104b2373375f3700d7,
  0x10101010101010101010101010101000000000000000000000000000000000000000000000000000001000100010001000100000000000000000000000000000000000000000000000000000000000000000000000000000000000000000000000000000000000000000000000000000000000000000000000000000000007f00000000000000000000000000000000000000d8,
  0x10101010101010101010101010101000000000000000000000000000000000000000000000000000001000100010001000100000000000000000000000000000000000000000000000000000000000000000000000000000000000000000000000000000000000000000000000000000000000000000000000000000000007f00000000000000000000000000000000000000d9,
  0x10101010101010101010101010101000000000000000000000000000000000000000000000000000001000100010001000100000000000000000000000000000000000000000000000000000000000000000000000000000000000000000000000000000000000000000000000000000000000000000000000000000000007f00000000000000000000000000000000000000da,
  0x10101010101010101010101010101000000000000000000000000000000000000000000000000000001000100010001000100000000000000000000000000000000000000000000000000000000000000000000000000000000000000000000000000000000000000000000000000000000000000000000000000000000007f00000000000000000000000000000000000000db,
  0x7000000000000000000b50036000000b5000000b500000000000000000504040202050404050501010101010303030405020100020002000000003264003c002800000000001e001900130010000e0000004b0000000000dc000000000000000000dc0000000000001008000000800c120462000000000000000000021001002b008b8f66800000410028003245010000002f0051000c05050532147f000000000000000401e1040e1e1e3228323200dc,
  0x80000000000000000003b00b50000003b000000b50000000000000000050404020205040405050101010101030304040402020002000200000000285a003c003c00000000001e001900130010000e0000004c0000000000dc000000000000000000dd0000000040001808000000800c120462000000000000000400021009002b008b8f668300022e006e009e45010000002f0051000c05050532147f0000000000000005024b040e3c3c3250646400dd,
  0x1000000001980188000001980000018800000000000000000404030202040403050501010101010203030304020100020001000000003264003c003200000000001e001900130010000e000000ec0001000100de000000000000000000de0000000480101808800240020c120c7a00000000000000040002100000c9009f8b7f80000032003c0090490203c60090001e00370902043214bf0000028800000410023c050a5f41235f374100de,
  0x2c0000000000000039003a000000390000003d00000000000000000504040202050404050501010101010202020303020300020003000000002850003c003200000000001e001900130010000e000000940000000000df000000000000000000df0000000000100200080000000c11a87c00000000000000000000100004f423968ba141000078003c003c47010000008d006100370c020032147f000000000000010001be0a0a23414123412300df,
  0x2d00000800000001f700be000001f7000000be00000000000000000505040202050504050501010101010202020203020200020002000000003750003c003c00000000001e001900130010000e000000950000000000df000000000000000000e00000000400104242080000000c51a87c00000000000000000000100006f423968ba14300011d005a00a840010000008d006100150c020032147f0000000000000104024b0a0a4b692d4b694b00e0,
  0x78000000000220000001a300d9000001a3000000d900000000000000000606050202060605050502010101010202030303020200020002000000003264003c003200000000001e001900130010000e0000004e0000000000e1000000000000000000e10000000000800204080000042c9010620000000000000002000010010c184b8acba0005300a0005a007440010000000f0037004805020432147f0000000000000040022d020e2d414b2d372d00e1,
  0x2f0000020000000188016000000188000000380000000000000000050504020205050405050101010101040404050501030001000200000000285a003c001e00000000001e001900130010000e000001630000000000e2000000000000000000e20000000c02100600080000000c13147a00000000000000008002500004d5239a8b600300089800d200aa460100000029000b002102020532197f00000000000008000219020a8c504646285500e2,
  0x99000002000000004100d300000041000000d30000000000000000050404020205040405050101010101040404050503030003000300000000375f003c003c00000000001e001900130010000e000000000000000000e3000000000000000000e30000000800001444140040200c90100100000080000000008000100026030185cbe0004001f900aa00a34701000000850005003304040532197f000000e900000020021902084628468c504100e3,
  0x10101010101010101010101010101000000000000000000000000000000000000000000000000000001000100010001000100000000000000000000000000000000000000000000000000000000000000000000000000000000000000000000000000000000000000000000000000000000000000000000000000000000007f00000000000000000000000000000000000000e4,
  0x10101010101010101010101010101000000000000000000000000000000000000000000000000000001000100010001000100000000000000000000000000000000000000000000000000000000000000000000000000000000000000000000000000000000000000000000000000000000000000000000000000000000007f00000000000000000000000000000000000000e5,
  0xc8000040040000019600610000019600000061000000000000000004030302020403030505010101010103030304040301000300010000000032500032003200000000001e001900130010000e00000000000000000074000000000000000000e60000000402100440400820000d11307a0000004000000008000010000090219a8b20030005f000b4010e410100000006006100210e020032147f000000eb00000504032d0f0a5f5f555f5f4b00e6,
  0x10101010101010101010101010101000000000000000000000000000000000000000000000000000001000100010001000100000000000000000000000000000000000000000000000000000000000000000000000000000000000000000000000000000000000000000000000000000000000000000000000000000000007f00000000000000000000000000000000000000e7,
  0x10101010101010101010101010101000000000000000000000000000000000000000000000000000001000100010001000100000000000000000000000000000000000000000000000000000000000000000000000000000000000000000000000000000000000000000000000000000000000000000000000000000000007f00000000000000000000000000000000000000e8,
  0xd100000000000001b300b0000001b3000000b0000000000000000004030302020403030505010101010103030304040101000100010000000032500032003200000000001e001900130010000e00000000000000000089000000000000000000e900000000000a0020000000428e181b600000000000000000200410c0700001860ba04b000145003c00b4400100000094005800240a0a003214ff0000000000000200022d00005f693c5a505500e9,
  0x10101010101010101010101010101000000000000000000000000000000000000000000000000000001000100010001000100000000000000000000000000000000000000000000000000000000000000000000000000000000000000000000000000000000000000000000000000000000000000000000000000000000007f00000000000000000000000000000000000000ea,
  0x10101010101010101010101010101000000000000000000000000000000000000000000000000000001000100010001000100000000000000000000000000000000000000000000000000000000000000000000000000000000000000000000000000000000000000000000000000000000000000000000000000000000007f00000000000000000000000000000000000000eb,
  0x1ea0074000001ea00000074000000000000000004030202020403020505010101010101020303030202000200010000000028500032003200000000001e001900130010000e0000006b0000000000ec000000000000000000ec0000000000200000000100080c10248200000000000000000002980000000b8683e0000300d20046002a4601000000480050003e0f0f003219000000000000000004014b010123232323232300ec,
  0x60000000e500a7000000e5000000e500000000000000000403020202040302050502010101010303030303020200020001000000002850003c004b00000000001e001900130010000e0000006e0000000000ec000000000000000000ed0000000000a00801003100080c10348200000000000000020002980000000f8783e0800301e0008c009f450100000050006500160808003219000000000000000800022d01016e23465f5f3200ed,
  0xd000000000000000000b5005d000000b50000005d000000000000000004030302020403030505010101010103030304040202000200020000000032500032003200000000001e001900130010000e000000000000000000ee000000000000000000ee00000000000420300002014a4e1048620000000000000000008011c10a00828aaba60013003c0028003d49010000005d006c000c0f0f003219fe0000000000000100012d0d0e4155410f1e2d00ee,
  0xf0000000000000000008100540000008100000054000000000000000003030202020303020505020201010103030304040102000100020000000028460028002800000000001e001900130010000e000000000000000000ef000000000000000000ef0000000000410000000000080c100b8200000000000000000005100008000b8283a3403b00eb003c0048420100000048000900090f0f0032193f0000014200000040012d0c0c37415f253f2d00ef,
  0x12000000000000000001f30034000001f300000034000000000000000003030202020303020505020201010103030304040302000300020000000028460028002800000000001e001900130010000e000000000000000000f0000000000000000000f00000000000000000008008188c10a88600000000000000000000100018000ac487a1202b00d600460049400100000048003100310f0f0032193f0000014300000040012d0909374653254b2d00f0,
  0x750001000000000022002d000000220000002d0000000000000000050404020205040405050101010101040404050503020003000200000000375f003c003c00000000001e001900130010000e000000000000000000f1000000000000000000f10000000844209421001000028c30477200000000000000040002900008010a97ab604b3b02f3007800ac49010000009d0071002f0505053214fe0000002100210020022d000046286469505f00f1,
  0x8000000000000017f00cc0000017f000000ba00000000000000000605050202060505050501010101010505050606020200020002000000004664003c003c00000000001e001900130010000e00000000000000000071000000000000000000f200000000106c30210002050a8c18cf6600000000000000040002900188010a8fab6a4b3b01d40096027b4901000000830020001e0606048c28fe000000e700000003031e0000874b370a0aff00f2,
  0x800000000000000000000000000d1000000000000000002020502020505050505010101010100000300000000000000030000000000000000002800000000000a000a0013000a000a000000000000000000f3000000000000000000f30000000080500400010200038c101302000000000000000024231004000043870326c30006f400be0122420100000027002e002e0f0f052350ff000000000000018003030c0c6473734b555a00f3,
  0x10000000000000000000000000000ac000000000000000002020502020505050505010101010100000300000000000000030000000000000000002800000000000a000a0013000a000a000000000000000000f4000000000000000000f40000000000000c00008208138c309006000000000000000400221010000043c70724ab0007bc00d20122450100000027002e002e0f0f052350ff0000000000000009030309094b5a6455737300f4,
  0x160000000000000000002020502020505050505010101010100000300000000000000030000000000000000002800000000000a000a0013000a000a000000000000000000f5000000000000000000f50000000400100400000200038c11107a0000000000000000802210090080639f0b248300074e00c80122410100000027002e002e0f0f052350ff000000000000081003030a0a735a55734b6400f5,
  0x8b000000000000000002c3009d000002c3000000f200000000000000000504040202050404050501010101010303040405020200020002000000003255003c003200000000001e001900130010000e0000017f0000000000f6000000000000000000f60000000000001c08040860a98d102402000000000000000400229000060308878761810002d0003c003c430100000008003e003e01010523287f0000000000000004012d0405322d2932403200f6,
  0x8c000000000000000001bc009d000001bc000000b800000000000000000606050202060605050501010101010405050606030200030002000000002d5a003c003c00000000001e001900130010000e000001800000000000f6000000000000000000f70000000000001c08040860a98d102402000000000000000400229000060308878761810005f00078009047010000003d003d003d01010523287f0000000000000008022d040546413346544600f7,
  0x8d00000000800000000059009d00000059000000590000000000000000060605020206060505050101010101030303040403030003000200000000325a003c003200000000001e001900130010000e000001810000000000f6000000000000000000f80000000840029c094408e0a98d10a7fe000000000000000e0022901f0e430c978761c33b07e400c8012c43010000007f002d002d01010523287f000000000000000c032d1005645f3d6e866400f8,
  0x420000000000000000000000000000b1000000000000000002020502020505050505010101010100000300000000000000020000000000000000002800000000000a000a0013000a000a000000000000000000f9000000000000000000f90000000002000428400205468e110f7a0000000000000000800210810080739f5b2e4340087002080154480100000088002e002e0f0f050078ff0000000000000c000303020d9a5a6e825a6a00f9,
  0x30000000000000000000000000000dd000000000000000002020502020505050505010101010100000300000000000000020000000000000000002800000000000a000a0013000a000a000000000000000000fa000000000000000000fa000000000000042c00820c160c108f04000000000000000090021000000053c7532e6b4007c6017c0154400100000090002e002e0f0f050078ff0000000000000c00030302099a6e5a5a826a00fa,
  0x6100000005e015c0000005e0000015c00000000000000000706050202070605050502020101010101010101030300030003000000003c640046004b00000000001e001900130010000e000000000000000000fb000000000000000000fb00000001100830ba0906014e2c1048010000000000000000090011e009005387132e5f000032003c012c43010000001e001e001e0f0f036478ff0000009d009d0003032d0b0d64646464646400fb,
  0x1000000048029e000000480000029e000000000000000003030202020303020505020201010103030304040303000300030000000028460028002800000000001e001900130010000e000000000000000000fc000000000000000000fc0000000000202082080000018c1010830000000100000000010050008c05098493698c2300320032003e430100000054004100410e010332141f0000000000000040012d0b0b374146232d2800fc,
  0x10000000ca0068000000ca00000068000000000000000003030202020303020505020201010102020203030303000300030000000028460028002800000000001e001900130010000e000000000000000000fc000000000000000000fd0000000000202082180400018c1010830000000100000000410058008c05098493699c2300d8005a008e430100000054004100410e010332141f0000000000000080022d0b0b41555f2d413200fd,
  0x4010000000ca0068000000ca00000068000000000000000003030202020303020505020201010102020203030303000300030000000028460028002800000000001e001900130010000e000000000000000000fc000000000000000000fe0000000080202083580c80018d101483000000090000000a41025a008c05098493699f23020a00aa0109430100000054004100410e010332141f00000000000000c0032d0b0b55697841554600fe,
  0x34001c000000340000001c000000000000000004030302020403030505010101010104040405050303000300030000000032500032003200000000001e001900130010000e000000000000000000ff000000000000000000ff0000000000200000008008102c30b087000000020000000000001002041102c48360a00300190028003e4001000000030042004205050332141f0000000000000100012d090932462d283c2d00ff,
  0x400000012b00740000012b00000074000000000000000004030302020403030505010101010103030304040301000300010000000032500032003200000000001e001900130010000e000000000000000000ff00000000000000000100000000000020000102810a102c30b0870000000200000000000018020c110fc48360a02b00c3005a008e4001000000030042004205050332141f0000000000000104022d01093c55373c553c0100,
  0x1400000012b00740000012b0000007400000000000000000403030202040303050501010101010303030404030100030001000000002d550037003700000000001e001900130010000e000000000000000000ff00000000000000000101000000000120080503a10a902c30b4870000001200000000000258020d110fc48360ab2b020800be01094001000000030042004205050332141f000000000000000c032d0109466e504678500101,
  0x370030000000370000003000000000000000000403030202040303050501010101010404040505030300030003000000002d550037003700000000001e001900130010000e00000000000000000102000000000000000001020000000000304008000000888c1300fa0000000400000000000010010001209a8b618000004c0028003e4101000000060043004302010332141f0000000000000004012d0a0a3232283246320102,
  0x14a00850000014a0000008500000000000000000403030202040303050501010101010303030404010200010002000000002d550037003700000000001e001900130010000e00000000000000000102000000000000000001030000000000305008000020888c1304fa0000000400000000000210010823289a8b61801301180046008e4101000000060043004302010332141f0000000000000008022d040a463c324655460103,
  0x40000014a00850000014a0000008500000000000000000403030202040303050501010101010303030404010200010002000000002d550037003700000000001e001900130010000e00000000000000000102000000000000000001040000000c60305809000120888d1304fa0000002400000004000210010823289a8b61831303330096010c4101000000060043004302010332141f000000000000000c032d040a5a553c5a6e640104,
  0x10101010101010101010101010101000000000000000000000000000000000000000000000000000001000100010001000100000000000000000000000000000000000000000000000000000000000000000000000000000000000000000000000000000000000000000000000000000000000000000000000000000000007f0000000000000000000000000000000000000105,
  0x10101010101010101010101010101000000000000000000000000000000000000000000000000000001000100010001000100000000000000000000000000000000000000000000000000000000000000000000000000000000000000000000000000000000000000000000000000000000000000000000000000000000007f0000000000000000000000000000000000000106,
  0x47000000000000000000af001c000000af0000002600000000000000000303030202030303050501010101010303030404020200020002000000002850003c002800000000001e001900130010000e0000001f000100010107000000000000000001070000000000202200080004428c10037200000000000000000010900008200396aba0c08000af00280038450203c7005f00520035050500320f7f0000001c0011004001ff0000291e3c291e260107,
  0x48000000000000000000a301d4000000a3000000a300000000000000000303030202030303050501010101010202030303020200020002000000002855003c003200000000001e001900130010000e00000020000100010107000000000000000001080000000084202200080004428c10037200000000000000040010900208200396aba0c380014500320093480203c8005f00520035050500320f7f0000001d00110080025a00003d32643d464e0108,
  0x10101010101010101010101010101000000000000000000000000000000000000000000000000000001000100010001000100000000000000000000000000000000000000000000000000000000000000000000000000000000000000000000000000000000000000000000000000000000000000000000000000000000007f0000000000000000000000000000000000000109,
  0x10101010101010101010101010101000000000000000000000000000000000000000000000000000001000100010001000100000000000000000000000000000000000000000000000000000000000000000000000000000000000000000000000000000000000000000000000000000000000000000000000000000000007f000000000000000000000000000000000000010a,
  0x10101010101010101010101010101000000000000000000000000000000000000000000000000000001000100010001000100000000000000000000000000000000000000000000000000000000000000000000000000000000000000000000000000000000000000000000000000000000000000000000000000000000007f000000000000000000000000000000000000010b,
  0x10101010101010101010101010101000000000000000000000000000000000000000000000000000001000100010001000100000000000000000000000000000000000000000000000000000000000000000000000000000000000000000000000000000000000000000000000000000000000000000000000000000000007f000000000000000000000000000000000000010c,
  0x10101010101010101010101010101000000000000000000000000000000000000000000000000000001000100010001000100000000000000000000000000000000000000000000000000000000000000000000000000000000000000000000000000000000000000000000000000000000000000000000000000000000007f000000000000000000000000000000000000010d,
  0x1000000048002d000000480000004700000000000000000403030202040303050501010101010303040405030200030002000000002d55003c002800000000001e001900130010000e0000002400000000010e0000000000000000010e0000000000102022080000080c1000730000000000000000000010000004009e9ba00800001a0032002c430100000014002c0021070203320f7f000000db0000040001ff0b0a32281e1e1e28010e,
  0x100000019c00480000019c000001ac00000000000000000403030202040303050501010101010303040404020200020002000000002850003c003200000000001e001900130010000e0000002500000000010e0000000000000000010f0000000000102022080024084c11007b0000000000000000000010008824289e9ba0083b014500780077430100000014002c0021070203320f7f000000db0000080002780b0a463c3232323c010f,
  0x100000003800ca00000038000001370000000000000000050404020205040405050201010101030303030403020003000200000000325a003c003200000000001e001900130010000e0000002600000000010e0000000000000000011000000000001020a3080024084c13407b0000000000000000000010008824689e9ba00b3b0226009600f0430100000014002c0021070203320f7f000000db00000c00032d0b0a645a464646500110,
  0x1000000047006a00000047000000470000000000000000040303020204030305050101010101040404050503020003000100000000325a003c002800000000001e001900130010000e00000027000000000111000000000000000001110000000000022012080000020c120003000000000000000041009000120400a49330880000280032002c45010000007c00300022070503320f7f0000010f0000001001ff0b0b1e1e1e3228280111,
  0x801000000146004b000001460000004b00000000000000000403030202040303050501010101010304040404020200020002000000002850003c002800000000001e001900130010000e000000280000000001110000000000000000011200000000000220120c0400020c1200830000000000000000412098001e0509a493f0990201180064007745010000007c00300022070503320f7f0000010f000000080278100b283c3c2846460112,
  0x80100000021e02180000021e0000021800000000000000000404030202040403050501010101010203030404030300030002000000002d5a003c003200000000001e001900130010000e000000290000000001110000000000000000011300000000820220931c0400120c1200830000000000000002c12098001e150da49bf19b020254008200f045010000007c00300022070503320f7f0000010f0000000c032d100b3c5a503c645a0113,
  0x10101010101010101010101010101000000000000000000000000000000000000000000000000000001000100010001000100000000000000000000000000000000000000000000000000000000000000000000000000000000000000000000000000000000000000000000000000000000000000000000000000000000007f0000000000000000000000000000000000000114,
  0x10101010101010101010101010101000000000000000000000000000000000000000000000000000001000100010001000100000000000000000000000000000000000000000000000000000000000000000000000000000000000000000000000000000000000000000000000000000000000000000000000000000000007f0000000000000000000000000000000000000115,
  0x30000002000000016000300000016000000160000000000000000003030302020303030505010101010103040405050202000200020000000028460032003c00000000001e001900130010000e0000003e000000000116000000000000000001160000000402100000000000080c1010600000000000000000800010000180018acba00040005f003c003648010000002c005d003304020032147f00000000023b004001be020a1e37551e1e280116,
  0x31000002000000003800fe00000038000000fe0000000000000000050404020205040405050101010101030303040402020002000100000000285a003c003c00000000001e001900130010000e0000003f000000000116000000000000000001170000000402100204080000080c1010780000000000000000800010000b80419acba0034001180078009a42010000002c0002003304020032147f00000000023b0020022d020a465f4164323c0117,
  0x22000004000000005e005d0000005e0000005d00000000000000000403030202040303050502010101010202030303020200020002000000002d64003c003c00000000001e001900130010000e000000780000000001180000000000000000011800000000100c2020000205664e1009020000000000000000028011c0080013c6abae443b00420028002848010000008c0024001c0b080523147f000000000000010001eb110d232d2819191c0118,
  0x23000004200000005e00680000005e00000068000000000000000004030202020403020505010101010101020203030202000200020000000028500028002800000000001e001900130010000e000000790000000001180000000000000000011900000000100c2020000205664e1009020000000000000000028011c0080013c6abae443b00ca0050006148010000008c0024001c0b080523147f00000000000002000278110d3741322323260119,
  0x24000204200000005e025d0000005e0000025d0000000000000000050403020205040305050202010101010302020202020002000200000000285a003c003200000000001e001900130010000e0000007a0000000001180000000000000000011a00000000100c2023000205664e10090200000000000000001a8011c0380013c6abae473b01e400a0010348010000008c0024001c0b080523147f0000000000000300032d110d737d50414144011a,
  0x10101010101010101010101010101000000000000000000000000000000000000000000000000000001000100010001000100000000000000000000000000000000000000000000000000000000000000000000000000000000000000000000000000000000000000000000000000000000000000000000000000000000007f000000000000000000000000000000000000011b,
  0x10101010101010101010101010101000000000000000000000000000000000000000000000000000001000100010001000100000000000000000000000000000000000000000000000000000000000000000000000000000000000000000000000000000000000000000000000000000000000000000000000000000000007f000000000000000000000000000000000000011c,
  0x10101010101010101010101010101000000000000000000000000000000000000000000000000000001000100010001000100000000000000000000000000000000000000000000000000000000000000000000000000000000000000000000000000000000000000000000000000000000000000000000000000000000007f000000000000000000000000000000000000011d,
  0x10101010101010101010101010101000000000000000000000000000000000000000000000000000001000100010001000100000000000000000000000000000000000000000000000000000000000000000000000000000000000000000000000000000000000000000000000000000000000000000000000000000000007f000000000000000000000000000000000000011e,
  0x10101010101010101010101010101000000000000000000000000000000000000000000000000000001000100010001000100000000000000000000000000000000000000000000000000000000000000000000000000000000000000000000000000000000000000000000000000000000000000000000000000000000007f000000000000000000000000000000000000011f,
  0x10101010101010101010101010101000000000000000000000000000000000000000000000000000001000100010001000100000000000000000000000000000000000000000000000000000000000000000000000000000000000000000000000000000000000000000000000000000000000000000000000000000000007f0000000000000000000000000000000000000120,
  0x10101010101010101010101010101000000000000000000000000000000000000000000000000000001000100010001000100000000000000000000000000000000000000000000000000000000000000000000000000000000000000000000000000000000000000000000000000000000000000000000000000000000007f0000000000000000000000000000000000000121,
  0x800000000e800bd000000e8000000e800000000000000000303030202030303050501010101010404040405030300030002000000002850003c003200000000001e001900130010000e00000068000000000122000000000000000001220000000000000000300000020c1400000000000000000000400010000000008513208800003700320035470100000032000e000e030301320f7f000000ed0000001001ff04061e1e285a2d1f0122,
  0xa0000000067000e000000670000000e00000000000000000303030202030303050502020101010608040505020200020001000000002850003c003200000000001e001900130010000e000000690000000001220000000000000000012300000000000000003000000a2c1410010000000000000000c00050000100018513a18b000078005000a042010000009700030003030301320f7f0000000000000080027802063232a02d5a3d0123,
  0x28000000000002360000023600000236000000000000000008080802020808080505010101010103030404040003000300030000000000640064006400000000001e001900130010000e0000006a000000000122000000000000000001240000000000080000300000420c141000000000000000000040403002000000c513a08b00000c00500053450100000019001900190a0a01320fff0000000000000002022d07061e1e282d5a010124,
  0x9400000000000001f10030000001f10000003000000000000000000605050202060505050501010101010606060707030200030002000000004664003c003c00000000001e001900130010000e000000000000000001250000000000000000012500000000002000200000040a0c108066000000000000000000009000080080868b21083b00a3003c003049010000009b002b002b05010332147f000000000000000101be000017331c1733400125,
  0x95000000000000024a01300000024a0000013000000000000000000605050202060505050501010101010505050606020100020001000000004664003c003c00000000001e001900130010000e0000000000000000012500000000000000000126000000000020002000000c2a0c1084e6000000000000000400029000080188868b61083b01950064007e410100000071002b002b05010332147f0000000000000002027800002b47302b47540126,
  0x96000000010000024a01300000024a0000013000000000000000000605050202060505050501010101010505050606020100020001000000004664003c003c00000000001e001900130010000e0000000000000000012500000000000000000127000000000020002100000c2b0d1084fe00000000000000040002901d080188968b610b3b0348009600f5410100000071002b002b05010332147f0000000000000003032d0000495b443f5b680127,
  0x10101010101010101010101010101000000000000000000000000000000000000000000000000000001000100010001000100000000000000000000000000000000000000000000000000000000000000000000000000000000000000000000000000000000000000000000000000000000000000000000000000000000003f0000000000000000000000000000000000000128,
  0x10101010101010101010101010101000000000000000000000000000000000000000000000000000001000100010001000100000000000000000000000000000000000000000000000000000000000000000000000000000000000000000000000000000000000000000000000000000000000000000000000000000000003f0000000000000000000000000000000000000129,
  0x8b000000000000001500cc000000cc0000001500000000000000000605050202060505050501010101010606060707030200020003000000004664003c003c00000000001e001900130010000e0000000000000000012a0000000000000000012a000000000030000000002408cc1100720000000000000002008010000030829aab22000000140014002641010000009d0025002f0f0f04320abf000000000000000101961100281414281432012a,
  0x10101010101010101010101010101000000000000000000000000000000000000000000000000000001000100010001000100000000000000000000000000000000000000000000000000000000000000000000000000000000000000000000000000000000000000000000000000000000000000000000000000000000007f000000000000000000000000000000000000012b],
  [0x1010101010101010101010101010100000000000000000000000000000000000000000000000000000100010001000100010000000000000000000000000000000000000000000000000000000000000000000000000000000000000000000000000000000000000000000000000000000000000000000000000000000000bf000000000000000000000000000000000000012c,
  0x1010101010101010101010101010100000000000000000000000000000000000000000000000000000100010001000100010000000000000000000000000000000000000000000000000000000000000000000000000000000000000000000000000000000000000000000000000000000000000000000000000000000000bf000000000000000000000000000000000000012d,
  0xae00000000a000000001a5006d000001a5000001a500000000000000000302020202030202050502020101010408030404030200030003000000003250003c002d00000000001e001900130010000e0000012600000000012e0000000000000000012e00000000100a0030861200624c10488200000000000000000020b8828a011ac68ba0803b006e0032008546010000009e0064003308080323197f0000010900000014022d07104141324b4b32012e,
  0xaf0000000000000000024700f2000002470000010d00000000000000000505040202050504050501010101010203030404030300030001000000002855003c002d00000000001e001900130010000e0000012700000000012f0000000000000000012f0000000204023c41040040232c50802700000080000000024280101c2e018a878b600b330073003c008544010000007d0016003406050432147f0000011600000014022d1108373732555532012f,
  0xbf000000010000000000e8013d000000e80000013d0000000000000000050404020205040405050101010101050505060603010003000100000000375f003c003c00000000001e001900130010000e00000000000000000130000000000000000001300000000800009408000040888c30040200000080000000000002100200010087836180000258002800424701000000860045000501010523237f000000ee0000001001b4050828281e6446320130,
  0xc0000000010000000000e7009d000000e70000009d0000000000000000050404020205040405050101010101040404050503010003000100000000375f003c003c00000000001e001900130010000e00000000000000000130000000000000000001310000000800009c08000040888c300402000000800000000400021002004300878361800004b0005a00974701000000860045000501010523237f000000ee00000020025a05083232288c5a3c0131,
  0xc1000000011000000000e7009d000000e70000009d0000000000000000050404020205040405050101010101040404050503010003000100000000375f003c003c00000000001e001900130010000e00000000000000000130000000000000000001320000000840009c494400c0a98d3087fe0000008000000007000210030a4308978f61cb3b0e1000d201094701000000860045000501010523237f000000ee00000030032d05083c3c32b46e460132,
  0x10101010101010101010101010101000000000000000000000000000000000000000000000000000001000100010001000100000000000000000000000000000000000000000000000000000000000000000000000000000000000000000000000000000000000000000000000000000000000000000000000000000000007f0000000000000000000000000000000000000133,
  0x10101010101010101010101010101000000000000000000000000000000000000000000000000000001000100010001000100000000000000000000000000000000000000000000000000000000000000000000000000000000000000000000000000000000000000000000000000000000000000000000000000000000007f0000000000000000000000000000000000000134,
  0x8000001b3010c000001b30000015000000000000000000303030202030303050501010101010303040405030200030001000000002855003c003200000000001e001900130010000e00000042000000000135000000000000000001350000000200410000000000098c10130600000000000000002021101c0000018283a240000098003c003b43010000003a001f000905050532147f000000000000004001780c0c284141282d280135,
  0x800000057010c00000057000001b30000000000000000030303020203030305050202010101030502030302020002000300000000325a003c003200000000001e001900130010000e0000004300000000013500000000000000000136000000020041000000000c098c10130600000000000000002421101c0000018287a243000192009600a642010000003a001f000905050532147f0000000000000080022d0c0c3c69693c4b460136,
  0x10101010101010101010101010101000000000000000000000000000000000000000000000000000001000100010001000100000000000000000000000000000000000000000000000000000000000000000000000000000000000000000000000000000000000000000000000000000000000000000000000000000000007f0000000000000000000000000000000000000137,
  0x10101010101010101010101010101000000000000000000000000000000000000000000000000000001000100010001000100000000000000000000000000000000000000000000000000000000000000000000000000000000000000000000000000000000000000000000000000000000000000000000000000000000007f0000000000000000000000000000000000000138,
  0x1010101010101010101010101010100000000000000000000000000000000000000000000000000000100010001000100010000000000000000000000000000000000000000000000000000000000000000000000000000000000000000000000000000000000000000000000000000000000000000000000000000000000000000000000000000000000000000000000000139,
  0x1010101010101010101010101010100000000000000000000000000000000000000000000000000000100010001000100010000000000000000000000000000000000000000000000000000000000000000000000000000000000000000000000000000000000000000000000000000000000000000000000000000000000fe000000000000000000000000000000000000013a,
  0x100000023c01130000023c0000002800000000000000000303030202030303050501010101010303040404020100020002000000003264003c002800000000001e001900130010000e0000003c00000000013b0000000000000000013b00000000100021820a40000a0cd000030000000000000000000014000004418693200c800014001e008c4301000000660026001e07060332147f000000f5000002000296030b5064412d3c32013b,
  0x10101010101010101010101010101000000000000000000000000000000000000000000000000000001000100010001000100000000000000000000000000000000000000000000000000000000000000000000000000000000000000000000000000000000000000000000000000000000000000000000000000000000007f000000000000000000000000000000000000013c,
  0x10101010101010101010101010101000000000000000000000000000000000000000000000000000001000100010001000100000000000000000000000000000000000000000000000000000000000000000000000000000000000000000000000000000000000000000000000000000000000000000000000000000000007f000000000000000000000000000000000000013d,
  0x6f00004004000000f20074000000f20000007400000000000000000403030202040303050501010101010303030404030100030001000000002d550037003700000000001e001900130010000e0000000000000000013e0000000000000000013e0000000600100020040000290c1130780000000000000000002090080690219a8fa1000000d00050003d400100000003001800180c0c0523147f000000000000000401e1100a144141145a2d013e,
  0x7000004004000000f20074000000f20000007400000000000000000403030202040303050501010101010303030404030100030001000000002d550037003700000000001e001900130010000e0000000000000000013e0000000000000000013f0000000600100020062000290c1134780000000000000000002290090691219a8fa10300037800b400a1410100000003001800180c0c0523147f0000000000000008023c100a285f5f287846013f,
  0xbe00010000000000fa0143000000fa000000fa000000000000000003030302020303030505010101010105050506060302000300030000000037640050002800000000001e001900130010000e00000164000000000140000000000000000001400000000800108020000004000c13047a0000000000000000000210010091609a8b300000051400c8005041010000002e000c00290c050232287f0000000000000001017d0a0a23463c2346820140,
  0xbf0001000000000039014300000039000000fa00000000000000000403030202040303050501010101010404050505030200030003000000003c640050003200000000001e001900130010000e00000165000000000140000000000000000001410000000c00108420000004000c13047a0000000000000000000210010091609a8b3003000f8c05aa00af41010000002e000c00290c050232287f0000000000000002023c0a0a2d5a3c2d5aaa0141,
  0x10101010101010101010101010101000000000000000000000000000000000000000000000000000001000100010001000100000000000000000000000000000000000000000000000000000000000000000000000000000000000000000000000000000000000000000000000000000000000000000000000000000000007f0000000000000000000000000000000000000142,
  0x10101010101010101010101010101000000000000000000000000000000000000000000000000000001000100010001000100000000000000000000000000000000000000000000000000000000000000000000000000000000000000000000000000000000000000000000000000000000000000000000000000000000007f0000000000000000000000000000000000000143,
  0xad0000010200000101011c00000101000001b400000000000000000505040202050504050501010101010303030404020100020002000000003264003c003200000000001e001900130010000e0000012c000000000144000000000000000001440000000801001808001048908c528406000000000000000400021000000140c483702b000324003200a545010000004b0046004905050032147f000000f900000020025a09094655148c55460144,
  0x10101010101010101010101010101000000000000000000000000000000000000000000000000000001000100010001000100000000000000000000000000000000000000000000000000000000000000000000000000000000000000000000000000000000000000000000000000000000000000000000000000000000007f0000000000000000000000000000000000000145,
  0x10101010101010101010101010101000000000000000000000000000000000000000000000000000001000100010001000100000000000000000000000000000000000000000000000000000000000000000000000000000000000000000000000000000000000000000000000000000000000000000000000000000000007f0000000000000000000000000000000000000146,
  0x10101010101010101010101010101000000000000000000000000000000000000000000000000000001000100010001000100000000000000000000000000000000000000000000000000000000000000000000000000000000000000000000000000000000000000000000000000000000000000000000000000000000007f0000000000000000000000000000000000000147,
  0x100000002a100bd000002a10000020b000000000000000003030302020303030505010101010103030404040203000200020000000028500032002800000000001e001900130010000e00000141000000000148000000000000000001480000000000000008000000810c102402000000000000000000021000002300859360890000960046003a45010000007d004700340e030332147f000000ed0000000401ff04042d2d0a2d642d0148,
  0x3000000024a02a10000024a000000e1000000000000000003030302020303030505010101010103030304040202000200030000000028500032002800000000001e001900130010000e00000142000000000148000000000000000001490000000080000008600000990d10240200000040000000008002100001230185d36189400099006e007743010000001a001a001a0e030332147f000000000000004402780f043232463246320149,
  0x43000000024a00590000024a0000005900000000000000000404040202040404050502010101010402030303020200020002000000002855003c003200000000001e001900130010000e000001430000000001480000000000000000014a0000000080000808600880998d10a406000000400000000a8002100001230185d361ab6b033400c8010443010000001a001a001a0e030332147f0000000000000084032d0f04505064506450014a,
  0x10101010101010101010101010101000000000000000000000000000000000000000000000000000001000100010001000100000000000000000000000000000000000000000000000000000000000000000000000000000000000000000000000000000000000000000000000000000000000000000000000000000000007f000000000000000000000000000000000000014b,
  0x10101010101010101010101010101000000000000000000000000000000000000000000000000000001000100010001000100000000000000000000000000000000000000000000000000000000000000000000000000000000000000000000000000000000000000000000000000000000000000000000000000000000007f000000000000000000000000000000000000014c,
  0x2300000000020000000249021a000002490000021a000000000000000005040402020504040505010101010104040405050201000200010000000037550037003700000000001e001900130010000e0000000000000000014d0000000000000000014d0000000014000000400004180d10102200000000000000004000100010000186c3a80840000c0028003e41010000000d001e001e0e040132147f000000000000040001ff02004b28323c282d014d,
  0x2400000000020000000249021a000002490000021a000000000000000005040402020504040505010101010104040405050201000200010000000037550037003700000000001e001900130010000e0000000000000000014d0000000000000000014e0000000016000000400884188d10942600000040000000084002108010000186c3a82b4000ce006e00ac41010000000d001e001e0e040132147f0000000000000800022d020f6946505a464b014e,
  0x10101010101010101010101010101000000000000000000000000000000000000000000000000000001000100010001000100000000000000000000000000000000000000000000000000000000000000000000000000000000000000000000000000000000000000000000000000000000000000000000000000000000007f000000000000000000000000000000000000014f,
  0x10101010101010101010101010101000000000000000000000000000000000000000000000000000001000100010001000100000000000000000000000000000000000000000000000000000000000000000000000000000000000000000000000000000000000000000000000000000000000000000000000000000000007f0000000000000000000000000000000000000150,
  0x1000000001bc018d000001bc0000018d00000000000000000303030202030303050501010101010303040404030200030001000000003255003c003200000000001e001900130010000e0000016a0000000001510000000000000000015100000000000c3c38801211062e100c620000000000000004080251401043438b0b7e03000690006400a142010000001a001a001a0a0a043219ff00000051005a0200022d0d05555f4641375a0151,
  0x10000000005e018d0000005e0000018d00000000000000000303030202030303050501010101010303040404030200030001000000003255003c003200000000001e001900130010000e0000016b0000000001520000000000000000015200000000000c3c28009259122e108c070000000000000004080250c0104343c7037e2b000604007800a140010000001a001a001a0a0a043219ff00000050005a0008022d0d05413746555f5a0152,
  0x3c0089000000000000014a01600000014a00000037000000000000000004040302020404030505010101010103030304040203000200030000000028500032002800000000001e001900130010000e000000e4000000000153000000000000000001530000000000100008000820040c1304780000000000000000000210000031209b8b20000000130028003a47010000005d006b000c0c0c0032147f000000000000000101be040a292e3c2b30320153,
  0x3d008a00000000000000590085000000590000008500000000000000000303030202030303050501010101010202030303020300020001000000001e50003c003200000000001e001900130010000e000000e50000000001530000000000000000015400000004001008280008200c0c1304780000000000000004000210000033609b8b60030000ec005a00a441010000005d006b000c0c0c0032147f0000000000000002024b040a474c3c494e6e0154,
  0x5b0000000000000098000e000000980000009800000000000000000303030202030303050501010101010303040404030200030003000000003255003c002800000000001e001900130010000e00000066000000000155000000000000000001550000000000100000100860a10c51007b0000000000000000400810000a21089a8b6080000073003c003e40010000005b004b0034090202320f7f000000000000000401cd0a0a23322341502b0155,
  0x5c0000800000000190000e000001900000019000000000000000000505040202050504050501010101010202030303020200020002000000003255003c003200000000001e001900130010000e00000067000000000155000000000000000001560000000400104010142860a10c51007b0000000000000000402890010a212d9a8b6083000148006e00a440010000005b004b0034090202320f7f0000000000000008029b100a375a3755783f0156,
  0x970000000005000000003c01420000003c0000003c000000000000000003030202020303020505020101010104020303030202000200020000000028500032001e00000000001e001900130010000e00000052000000000157000000000000000001570000000010883028001211420e100c200000000000000000280230c030031087037e880000d70032003c45010000001a001a001a0a0a003214ff0000010d0000040001ff0d044628373728280157,
  0x980000000005000000005e01420000005e0000003c000000000000000003030302020303030505020201010102030203030202000200020000000023500028002800000000001e001900130010000e000000530000000001570000000000000000015800000008108c3838001251460e100c200000000000000000280230c030031087037e8b000438009600af44010000001a001a001a0a0a003214ff0000010d00000800025a0d0478464b69463c0158,
  0xb7000000001000000000ca0085000000ca00000085000000000000000005040402020504040505010101010104040405050201000200010000000037550037003700000000001e001900130010000e0000000000000000015900000000000000000159000000000000300a080000000c52000300000000000000000000100000e500859360080000ee0064004746010000007200150015090901321e1f0000012800000400012d0b05573d174d29420159,
  0xb8000000001000000000ca0085000000ca00000085000000000000000005040402020504040505010101010104040405050201000200010000000037550037003700000000001e001900130010000e000000000000000001590000000000000000015a000000000000790a080000000c52040300000000000000000102100000e5008593608b00025c009600ad43010000007200150015090901321e1f0000012800000800022d0b056b512b615156015a,
  0xb90000000010000000015e01940000015e0000019400000000000000000403030202040303050501010101010303030404030300030003000000002d550037003700000000001e001900130010000e0000000000000000015b0000000000000000015b0000000000001008100040000c10000300000000000000004000120000e1088583618000007d0046004747010000002100040004090901321e1f0000000000000004012d060532284b325f2d015b,
  0xba0000000010000000015e01940000015e0000019400000000000000000403030202040303050501010101010303030404030300030003000000002d550037003700000000001e001900130010000e0000000000000000015b0000000000000000015c0000000400001848100040808c10048300000000000000064002120200e108858361830002aa009600ad47010000002100040004090901321e1f0000000000000008022d060550462d647d4b015c,
  0xbc000000004000000000af0096000000af000000af0000000000000000050505020205050505050101010101030404040502020002000200000000325a003c003200000000001e001900130010000e0000009800000000015d0000000000000000015d0000000000100000400020008c11007000000000000000000000100000a0219a8b220000004a003c002845010000005b000c00210e020132147f000000000000004001ff0a0a370a50140f14015d,
  0xbd00000000482400000039018800000039000001e900000000000000000505050202050505050501010101010202030303020100020002000000003c64003c003200000000001e001900130010000e0000009900000000015d0000000000000000015e0000000000100400400820008c11007a000000000000000a0002100100a0739a8b2a03000654026c00bd49010000003800ac003f0e020132147f0000000000000800023c0a0a7d64514f3c5f015e,
  0x10101010101010101010101010101000000000000000000000000000000000000000000000000000001000100010001000100000000000000000000000000000000000000000000000000000000000000000000000000000000000000000000000000000000000000000000000000000000000000000000000000000000007f000000000000000000000000000000000000015f,
  0x10101010101010101010101010101000000000000000000000000000000000000000000000000000001000100010001000100000000000000000000000000000000000000000000000000000000000000000000000000000000000000000000000000000000000000000000000000000000000000000000000000000000007f0000000000000000000000000000000000000160,
  0x10101010101010101010101010101000000000000000000000000000000000000000000000000000001000100010001000100000000000000000000000000000000000000000000000000000000000000000000000000000000000000000000000000000000000000000000000000000000000000000000000000000000007f0000000000000000000000000000000000000161,
  0x10101010101010101010101010101000000000000000000000000000000000000000000000000000001000100010001000100000000000000000000000000000000000000000000000000000000000000000000000000000000000000000000000000000000000000000000000000000000000000000000000000000000007f0000000000000000000000000000000000000162,
  0x2800000001050032000001050000003200000000000000000504040202050404050501010101010303040404020200020002000000003c5a003c003c00000000001e001900130010000e00000087000000000163000000000000000001630000000000080000040201660c1008620000000000000000000030c00a0016c68ba0000000960050003b440100000077001a001a0b0b0423197f000000f70000040001be07075a1e195a28140163,
  0x2800000001fa0105000001fa00000105000000000000000005050402020505040505010101010103030304040302000300020000000032500032003200000000001e001900130010000e00000088000000000163000000000000000001640000000000080000040201660c104c620000000000000000000230c00a011ec68be0033b013200a0009f440100000077002e002e0b0b0423197f000000f700000410025a0707823c198246280164,
  0x10101010101010101010101010101000000000000000000000000000000000000000000000000000001000100010001000100000000000000000000000000000000000000000000000000000000000000000000000000000000000000000000000000000000000000000000000000000000000000000000000000000000007f0000000000000000000000000000000000000165,
  0x10101010101010101010101010101000000000000000000000000000000000000000000000000000001000100010001000100000000000000000000000000000000000000000000000000000000000000000000000000000000000000000000000000000000000000000000000000000000000000000000000000000000007f0000000000000000000000000000000000000166,
  0x6b00000000000000000190000e0000000e0000019000000000000000000403030202040303050501010101010303030404030100010003000000002d550037003700000000001e001900130010000e00000000000000000167000000000000000001670000000084020820142200a6bc10a3670000000000000002c020b022061101cf8be0430001d6007800a348010000009a0069002e05050323197f0000000000000008021e10103c4b4b3c82410167,
  0x4400f300000044000000e30000000000000000040303020204030305050101010101050505050502020002000200000000285a0032002800000000001e001900130010000e000000d800000000016800000000000000000168000000000000000000000000400200000000000000000000000000000000000020080000008c003c003441010000008c001700170f0f0032147f0000000000000001017d0d0d30171730175f0168,
  0x190000000000000000020c002b0000020c0000020c000000000000000003030302020303030505010101010104040405050302000300020000000032550032001e00000000001e001900130010000e0000004f000000000169000000000000000001690000000000000000000000030c9000620000000000000000000030090000c08a8b2a000000a80046003c47010000008d007300270a060032147f000002890000000101be0e0e3232323232320169,
  0x1a0000000100000000023d00c40000023d0000023d00000000000000000303030202030303050501010101010203030404030200030002000000003255003c002800000000001e001900130010000e000000500000000001690000000000000000016a0000000000000400041000230c9004620000000000000000000230090208c08a8f3a03000a05009600a847010000008d007300270a060032147f0000000000000002024b0e0e505050505050016a,
  0x9f000000010000000000b5002d000000b50000002d00000000000000000605050202060505050501010101010606060707020100020001000000004664003c003c00000000001e001900130010000e0000000000000000016b0000000000000000016b000000000000000000000000cc1104720000000000000000000210000081209a8b600000018b0050003a41010000000c0073002f05020332147f000000000000000101ff0a0e323719322846016b,
  0xa000000001000000000022003b000000220000003b00000000000000000605050202060505050501010101010505050606020100020001000000004664003c003c00000000001e001900130010000e0000000000000000016b0000000000000000016c000000000000000000000000cc1104720000000000000000000210000089209a8b600000036c006e009041010000000c0073002f05020332147f000000000000000202780a0e464b2d463c5a016c,
  0xa100000001000000000022003b000000220000003b00000000000000000605050202060505050501010101010505050606020100020001000000004664003c003c00000000001e001900130010000e0000000000000000016b0000000000000000016d0000000c0000840000000001cc11047b0000000000000004000210090089209a8b60030005e2008c010941010000000c0073002f05020332147f0000000000000003032d0a0e5a5f415a506e016d,
  0x10101010101010101010101010101000000000000000000000000000000000000000000000000000001000100010001000100000000000000000000000000000000000000000000000000000000000000000000000000000000000000000000000000000000000000000000000000000000000000000000000000000000007f000000000000000000000000000000000000016e,
  0x10101010101010101010101010101000000000000000000000000000000000000000000000000000001000100010001000100000000000000000000000000000000000000000000000000000000000000000000000000000000000000000000000000000000000000000000000000000000000000000000000000000000007f000000000000000000000000000000000000016f,
  0x10101010101010101010101010101000000000000000000000000000000000000000000000000000001000100010001000100000000000000000000000000000000000000000000000000000000000000000000000000000000000000000000000000000000000000000000000000000000000000000000000000000000007f0000000000000000000000000000000000000170,
  0xbb000000005000000001910119000001910000011900000000000000000504040202050404050501010101010404040505020100020001000000002d5f003c003c00000000001e001900130010000e00000000000000000171000000000000000001710000000c00101828000260000c13047a00000000000000040002100000f1209b8b68030000ea006400aa470100000005004500210c020532281f00000000000000110219050a412d37825a640171,
  0x1010101010101010101010101010100000000000000000000000000000000000000000000000000000100010001000100010000000000000000000000000000000000000000000000000000000000000000000000000000000000000000000000000000000000000000000000000000000000000000000000000000000000bf0000000000000000000000000000000000000172,
  0x710000000000000000001d002b0000001d0000002b00000000000000000403030202040303050501010101010404040505030100030001000000002d550037003700000000001e001900130010000e000000000000000001730000000000000000017300000000000000204008c4010d10a00e000000400000000000001012000108868760000001a5003c003c41010000007d004500450e0e0523287f000000fa00000004012d0f0f1e28323c4b2d0173,
  0x7200000000000000000151007400000151000000740000000000000000050404020205040405050101010101040404050503010003000100000000375f003c003c00000000001e001900130010000e000000000000000001730000000000000000017400000000000000204008c4010d10a00e00000040000000000000101200010886876000000451006e009348010000008e004500450e0e0523287f000000fa00000020022d0f0f323c32645f410174,
  0x73000000000200000001510074000001510000007400000000000000000403030202040303050501010101010303030404030100030001000000002d550037003700000000001e001900130010000e000000000000000001730000000000000000017500000000020008204008c4118d10a40e000000400000000a8002101600010986c760034004020096012c410100000099001600160e0e0523287f000000fa0000000c032d020f506e6450875f0175,
  0x8100000000000000000021002100000021000000210000000000000000050404020205040405050101010101050505060603030003000300000000375f003c003c00000000001e001900130010000e000000000000000001760000000000000000017600000000000004200000400000000000000000800000000000000000000000000000000003b8003c003c410100000087001d001d0a0a052328ff000000e90000001001030d083c231e5037280176,
  0x820000000114000000013501ac00000135000001ac0000000000000000050404020205040405050101010101040404050503030003000300000000375f003c003c00000000001e001900130010000e00000000000000000176000000000000000001770000000000083460001050420e501c02000000800000000000021020000109870f76013007e900780093410100000087001d001d0a0a052328ff000000e90000002002030d08503732644b3c0177,
  0x830000000114000000013501ac00000135000001ac00000000000000000403030202040303050501010101010303030000030300030003000000002d550037003700000000001e001900130010000e00000000000000000176000000000000000001780000000800083460001050420e501c02000000800000000600021020000109870f760330157c00a0012c410100000087001d001d0a0a052328ff000000e90000003003030d085a5f468287500178,
  0xc50000000010000000000000000000000000000000000000000000000002020202020505050505010101010100000000000000000000000000000000000000000000000000000a000a000a000a000a00000000000000000179000000000000000001790000000800009c49000040800c100702000000000000000400021000884308850378c33b08fc00aa0122450100000005001d001d0f0f052350ff000000000000003003030505643232c864500179,
  0xc60000000000000000000000000000000000000000000000000000000002020202020505050505010101010100000000000000000000000000000000000000000000000000000a000a000a000a000a0000000000000000017a0000000000000000017a0000000000008441000000800c1207620000000000000004000210010809088a0b78433306d600b40122410100000073001d001d0f0f052350ff0000000000000c0003030e0ec86432643250017a,
  0xc70000000110000000000000000000000000000000000000000000000002020202020505050505010101010100000000000000000000000000000000000000000000000000000a000a000a000a000a0000000000000000017b0000000000000000017b0000000800009441000040800c1207020000008000000004000210020803088703784333080200be0122470100000087001d001d0f0f052350ff000000000000042003030808964b32964b50017b,
  0x42000000000000000000000000000128000000000000000002020502020505050505010101010100000300000000000000030000000000000000002800000000000a000a0013000a000a0000000000000000017c0000000000000000017c00000000000c2022410a80462f191f3200000040000000089002912200002397eb2e4b400190008c012c40010000001a001a001a0f0f055a78fe0000000000000c0003030d0f826e6e5a5050017c,
  0x42000000000000000000000000000127000000000000000002020502020505050505010101010100000300000000000000030000000000000000002800000000000a000a0013000a000a0000000000000000017d0000000000000000017d00000000000c2022410a80462f191f320000004000000008900290a200002397cb2e4b40025800c8012c41010000001a001a001a0f0f055a7800000000000000030003030d0f6e826e505a50017d,
  0x26a000000000000000002020502020505050505010101010100000300000000000000020000000000000000002800000000000a000a0013000a000a0000000000000000017e0000000000000000017e0000000400108400000220080c11077a0000000000000000000210010081289a0f6843000dc001c2014f410100000002000200020f0f050078ff000000000000030003030a0a8c965a5a6464017e,
  0x100000000000000000000000000026b000000000000000002020502020505050505010101010100000300000000000000020000000000000000002800000000000a000a0013000a000a0000000000000000017f0000000000000000017f0000000041009c09400188088c108707000000000000000600021002082108850768cb2b251c015e014f400100000046004600460f0f050078ff000000000000000c030304045a645a8c9664017f,
  0x50000000000000000000000000000196000000000000000002020502020505050505010101010100000300000000000000030000000000000000002800000000000a000a0013000a000a00000000000000000180000000000000000001800000000002000c0b40199c098d11877f000000400000000a80021003080129970f604b40081102bc0154430203cc004c004c004c0f0f050078ff0000000000000108032d020f5a965f5a96690180,
  0x1400000001350161000001350000016100000000000000000706050202070605050502020101010101010101030100030001000000004b640046004b00000000001e001900130010000e000000000000000001810000000000000000018100000000140c34620102514e6e124b02000000800000000000001140890013872b2e433b000b001e012c420100000020002000200f0f056478ff0000005b005b000303030d086464646464640181,
  0x1010101010101010101010101010100000000000000000000000000000000000000000000000000000100010001000100010000000000000000000000000000000000000000000000000000000000000000000000000000000000000000000000000000000000000000000000000000000000000000000000000000000000ff0000000000000000000000000000000000000182,
  0x10101010101010101010101010101000000000000000000000000000000000000000000000000000001000100010001000100000000000000000000000000000000000000000000000000000000000000000000000000000000000000000000000000000000000000000000000000000000000000000000000000000000001f0000000000000000000000000000000000000183,
  0x10101010101010101010101010101000000000000000000000000000000000000000000000000000001000100010001000100000000000000000000000000000000000000000000000000000000000000000000000000000000000000000000000000000000000000000000000000000000000000000000000000000000001f0000000000000000000000000000000000000184,
  0x10101010101010101010101010101000000000000000000000000000000000000000000000000000001000100010001000100000000000000000000000000000000000000000000000000000000000000000000000000000000000000000000000000000000000000000000000000000000000000000000000000000000001f0000000000000000000000000000000000000185,
  0x10101010101010101010101010101000000000000000000000000000000000000000000000000000001000100010001000100000000000000000000000000000000000000000000000000000000000000000000000000000000000000000000000000000000000000000000000000000000000000000000000000000000001f0000000000000000000000000000000000000186,
  0x10101010101010101010101010101000000000000000000000000000000000000000000000000000001000100010001000100000000000000000000000000000000000000000000000000000000000000000000000000000000000000000000000000000000000000000000000000000000000000000000000000000000001f0000000000000000000000000000000000000187,
  0x10101010101010101010101010101000000000000000000000000000000000000000000000000000001000100010001000100000000000000000000000000000000000000000000000000000000000000000000000000000000000000000000000000000000000000000000000000000000000000000000000000000000001f0000000000000000000000000000000000000188,
  0x10101010101010101010101010101000000000000000000000000000000000000000000000000000001000100010001000100000000000000000000000000000000000000000000000000000000000000000000000000000000000000000000000000000000000000000000000000000000000000000000000000000000001f0000000000000000000000000000000000000189,
  0x10101010101010101010101010101000000000000000000000000000000000000000000000000000001000100010001000100000000000000000000000000000000000000000000000000000000000000000000000000000000000000000000000000000000000000000000000000000000000000000000000000000000001f000000000000000000000000000000000000018a,
  0x10101010101010101010101010101000000000000000000000000000000000000000000000000000001000100010001000100000000000000000000000000000000000000000000000000000000000000000000000000000000000000000000000000000000000000000000000000000000000000000000000000000000001f000000000000000000000000000000000000018b,
  0x10101010101010101010101010101000000000000000000000000000000000000000000000000000001000100010001000100000000000000000000000000000000000000000000000000000000000000000000000000000000000000000000000000000000000000000000000000000000000000000000000000000000007f000000000000000000000000000000000000018c,
  0x10101010101010101010101010101000000000000000000000000000000000000000000000000000001000100010001000100000000000000000000000000000000000000000000000000000000000000000000000000000000000000000000000000000000000000000000000000000000000000000000000000000000007f000000000000000000000000000000000000018d,
  0x10101010101010101010101010101000000000000000000000000000000000000000000000000000001000100010001000100000000000000000000000000000000000000000000000000000000000000000000000000000000000000000000000000000000000000000000000000000000000000000000000000000000007f000000000000000000000000000000000000018e,
  0x10101010101010101010101010101000000000000000000000000000000000000000000000000000001000100010001000100000000000000000000000000000000000000000000000000000000000000000000000000000000000000000000000000000000000000000000000000000000000000000000000000000000007f000000000000000000000000000000000000018f],
  [0x10101010101010101010101010101000000000000000000000000000000000000000000000000000001000100010001000100000000000000000000000000000000000000000000000000000000000000000000000000000000000000000000000000000000000000000000000000000000000000000000000000000000007f0000000000000000000000000000000000000190,
  0x10101010101010101010101010101000000000000000000000000000000000000000000000000000001000100010001000100000000000000000000000000000000000000000000000000000000000000000000000000000000000000000000000000000000000000000000000000000000000000000000000000000000007f0000000000000000000000000000000000000191,
  0x10101010101010101010101010101000000000000000000000000000000000000000000000000000001000100010001000100000000000000000000000000000000000000000000000000000000000000000000000000000000000000000000000000000000000000000000000000000000000000000000000000000000007f0000000000000000000000000000000000000192,
  0x1900000008000000d1002c000000d10000002c00000000000000000403030202040303050501010101010404040505030300030003000000002d550037003700000000001e001900130010000e00000000000000000193000000000000000001930000000204410000000000018c10030000000000000000002021101c0000838287a24000005f0032003541010000003e0016004f05050332147f000000000000000401eb0c0c22282d22412d0193,
  0x1a00000008000001b300f2000001b3000000f200000000000000000403030202040303050501010101010303030404010300010003000000002d550037003700000000001e001900130010000e00000000000000000193000000000000000001940000000204410000000000018c10030000000000000000002021101c0000838287a240000131005a007f41010000003e0016004f05050364147f000000000000000802780c0c313c3c31553c0194,
  0x1b00000008000001b300f2000001b3000000f200000000000000000403030202040303050501010101010303030404010300010003000000002d550037003700000000001e001900130010000e00000000000000000193000000000000000001950000000284410000000000818c10130000000000000000002421101c0000838287a2430001a4008c010641010000003e0016004f05050332147f000000000000000c032d0c0c4f5f464f78500195,
  0x100000004e01840000004e0000018400000000000000000303030202030303050501010101010404040505020200020002000000003255003c003200000000001e001900130010000e0000003b0000000001960000000000000000019600000000100020820800000a0cd000010000000000000000000014000004418693200880000c001400384301000000660026001e0f0f0332147f000000f50000010001ff030b463237231e280196,
  0x1000000257005c00000257000001da00000000000000000403030202040303050501010101010202030303020200020003000000003264003c002800000000001e001900130010000e0000003d00000000013b0000000000000000019700000000180021820a40000a0cd000030000000000000000010014000004418693200f800091005a01024301000000650026001e07060332147f000000f500000300034b030b697d5a41463c0197,
  0x10101010101010101010101010101000000000000000000000000000000000000000000000000000001000100010001000100000000000000000000000000000000000000000000000000000000000000000000000000000000000000000000000000000000000000000000000000000000000000000000000000000000001f0000000000000000000000000000000000000198,
  0x10101010101010101010101010101000000000000000000000000000000000000000000000000000001000100010001000100000000000000000000000000000000000000000000000000000000000000000000000000000000000000000000000000000000000000000000000000000000000000000000000000000000001f0000000000000000000000000000000000000199,
  0x10101010101010101010101010101000000000000000000000000000000000000000000000000000001000100010001000100000000000000000000000000000000000000000000000000000000000000000000000000000000000000000000000000000000000000000000000000000000000000000000000000000000001f000000000000000000000000000000000000019a,
  0x10101010101010101010101010101000000000000000000000000000000000000000000000000000001000100010001000100000000000000000000000000000000000000000000000000000000000000000000000000000000000000000000000000000000000000000000000000000000000000000000000000000000001f000000000000000000000000000000000000019b,
  0x10101010101010101010101010101000000000000000000000000000000000000000000000000000001000100010001000100000000000000000000000000000000000000000000000000000000000000000000000000000000000000000000000000000000000000000000000000000000000000000000000000000000007f000000000000000000000000000000000000019c,
  0x1010101010101010101010101010100000000000000000000000000000000000000000000000000000100010001000100010000000000000000000000000000000000000000000000000000000000000000000000000000000000000000000000000000000000000000000000000000000000000000000000000000000000fe000000000000000000000000000000000000019d,
  0x101010101010101010101010101010000000000000000000000000000000000000000000000000000010001000100010001000000000000000000000000000000000000000000000000000000000000000000000000000000000000000000000000000000000000000000000000000000000000000000000000000000000000000000000000000000000000000000000000019e,
  0xcb000002000000020a00e60000020a0000001000000000000000000303030202030303050501010101010404040505020200020002000000002d55003c002800000000001e001900130010000e0000007400000000019f0000000000000000019f0000000000000000200000000000000000000000000000000000000000000000010000000037001e003142010000003700760076030303320f1f0000005e00000040017802062a1e462a1e1e019f,
  0xcc00000200000001c601c7000001c6000001c600000000000000000504040202050404050501010101010202030303020200020002000000002d550032003200000000001e001900130010000e0000007500000000019f000000000000000001a00000000000000000b04000080c7000000000000000000000800076000d0005a683a103800181007800a642010000007f002e002e030303320ffe000000f500000410022d020666502866504601a0,
  0x10101010101010101010101010101000000000000000000000000000000000000000000000000000001000100010001000100000000000000000000000000000000000000000000000000000000000000000000000000000000000000000000000000000000000000000000000000000000000000000000000000000000007f00000000000000000000000000000000000001a1,
  0x10101010101010101010101010101000000000000000000000000000000000000000000000000000001000100010001000100000000000000000000000000000000000000000000000000000000000000000000000000000000000000000000000000000000000000000000000000000000000000000000000000000000007f00000000000000000000000000000000000001a2,
  0x10101010101010101010101010101000000000000000000000000000000000000000000000000000001000100010001000100000000000000000000000000000000000000000000000000000000000000000000000000000000000000000000000000000000000000000000000000000000000000000000000000000000007f00000000000000000000000000000000000001a3,
  0x100000004a029e0000004a0000029e00000000000000000303030202030303050501010101010304040405020200020002000000003255003c003c00000000001e001900130010000e000000800000000001a4000000000000000001a40000000110002002080000000c1000010000000000000000018010000004428493280c000021002800374901000000220022002207060032147f000000ef0000010001be0b0b353e232d232d01a4,
  0x10000000500184000000500000005000000000000000000404030202040403050501010101010303030404020300020002000000003264003c002d00000000001e001900130010000e000000810000000001a4000000000000000001a50000000114002002080000000c1000010000000000000000018010000004428493281f00005d0032009e460203d6007a007a007a07060032147f000000ef00000200024b0b0b4e5755463c4601a5,
  0x8000000014a00fa0000014a000000220000000000000000040303020204030305050101010101040404040402020002000200000000325a003c002800000000001e001900130010000e000000e60000000001a6000000000000000001a60000000000100008000020000c12007a00000000000000000000100000a0209a8b200000003f001e0041460203d7009f0072003c0b020032147f000000000000000101be0a0a3e392230304c01a6,
  0x8000000014a019e0000014a0000014a00000000000000000504040202050404050501010101010203030303030200030002000000002d50003c003200000000001e001900130010000e000000e70000000001a6000000000000000001a70000000000104808000020000c53047a00000000000000040002100000a3609b8b608300012b005a00a6460203d8009f0072003c0b020032147f0000000000000002024b040a525c2744536f01a7,
  0x10101010101010101010101010101000000000000000000000000000000000000000000000000000001000100010001000100000000000000000000000000000000000000000000000000000000000000000000000000000000000000000000000000000000000000000000000000000000000000000000000000000000007f00000000000000000000000000000000000001a8,
  0x87000000000000005f016e0000005f0000016e000000000000000004030302020403030505010101010104040404040301000300010000000032550032002800000000001e001900130010000e0000007c0000000001a9000000000000000001a90000000000080000001201422c122b02000000000000000200007000020041c68bb04000000c0028004646010000008a0054006a0b0b02321e7f0000000000000001017d02072c3c4622325a01a9,
  0x8800000000000000c4006b000000c40000006b00000000000000000403030202040303050501010101010202030303030200030001000000003255003c003c00000000001e001900130010000e0000007d0000000001a9000000000000000001aa0000000000080000001201422c122b02000000000000000200407000020051c68bb043400096007800ae46010000008a0054006a0b0b02321e7f0000000000000002023c0207365a502c509601aa,
  0x4000000200000001d00cc000000cc0000001d000000000000000003030202020303020505020201010102020203030302000200030000000028460028002800000000001e001900130010000e000000000000000001ab000000000000000001ab00000000042020000000140aec1011a00000000000000000000098008e108386a320c83b0037002800464501000000070067003208050000147f000000000000004001be0000382c552c423701ab,
  0x5000000200000001d00cc000000cc0000001d00000000000000000303020202030302050502020101010202020303030200020003000000003c5a003c003200000000001e001900130010000e000000000000000001ab000000000000000001ac00000000042020010120140aec3013e000000000000000020000d8008f108386a320cb3b014d007800a8450100000007006700380805008c147f0000000000000080023c0000603669544c4101ac,
  0x10101010101010101010101010101000000000000000000000000000000000000000000000000000001000100010001000100000000000000000000000000000000000000000000000000000000000000000000000000000000000000000000000000000000000000000000000000000000000000000000000000000000007f00000000000000000000000000000000000001ad,
  0x10101010101010101010101010101000000000000000000000000000000000000000000000000000001000100010001000100000000000000000000000000000000000000000000000000000000000000000000000000000000000000000000000000000000000000000000000000000000000000000000000000000000007f00000000000000000000000000000000000001ae,
  0x1010101010101010101010101010100000000000000000000000000000000000000000000000000000100010001000100010000000000000000000000000000000000000000000000000000000000000000000000000000000000000000000000000000000000000000000000000000000000000000000000000000000000bf00000000000000000000000000000000000001af,
  0x1010101010101010101010101010100000000000000000000000000000000000000000000000000000100010001000100010000000000000000000000000000000000000000000000000000000000000000000000000000000000000000000000000000000000000000000000000000000000000000000000000000000000bf00000000000000000000000000000000000001b0,
  0x10101010101010101010101010101000000000000000000000000000000000000000000000000000001000100010001000100000000000000000000000000000000000000000000000000000000000000000000000000000000000000000000000000000000000000000000000000000000000000000000000000000000007f00000000000000000000000000000000000001b1,
  0x80800000006c008b0000006c0000008b00000000000000000302020202030202050501010101010404040405020200020003000000002855003c002800000000001e001900130010000e000000820000000001b2000000000000000001b2000000008c020010040000238c50a0040000000000000000003034020600018687a1800000c000280042460100000033006a000105050032147f000000000000004001e1100329294a2f3f3f01b2,
  0x8082000001da008b000001da0000008b00000000000000000504040202050404050501010101010303030304020200020001000000003c550032002d00000000001e001900130010000e000000830000000001b2000000000000000001b3000000008c020010060000238c50a0040000000000000000003034020600018687a1a300017c006400a8460100000033006a000105050032147f0000000000000002023c10033d4754435d6701b3,
  0x5700000001040000000168014e000001680000014e000000000000000004040302020404030505010101010102030304040302000300010000000028500032003200000000001e001900130010000e000000760000000001b4000000000000000001b4000000000008b040001241460e100c000000008000000000000230c072011087036e0800025d0032003c4301000000860055001a0a0a003214ff000000e90000001001ff0d0856181756183901b4,
  0x5800000001140000000168011e000001680000016800000000000000000504040202050404050501010101010203030404020200020003000000002d55003c002800000000001e001900130010000e000000770000000001b4000000000000000001b5000000080008b460001241460e100c000000008000000000080230c072015087036e0b00074e008200af4301000000860055001a0a0a003214ff000000e900000410025a0d08744f2174594301b5,
  0xaf0139000000af0000013900000000000000000403030202040303050501010101010203030405020200020002000000001e550032002800000000001e001900130010000e000000fc0000000001b6000000000000000001b60000000000021008000200080c10008000000000000000040000100000038a8583f0800000960032003a45010000009b004500050f0f0032147f000000000000001001ff05052d0a0a5f503201b6,
  0xa0000000000000000011001100000011000000110000000000000000003030302020303030505010101010104050505050101000100010000000028460032003200000000001e001900130010000e0000016c0000000001b7000000000000000001b700000000100c20100002016e6e100b0000000000000000000a0011c088000a86abae48000082003c003e490100000065006f002b0f0f0032197f00000000000004000191110d5a463c2d191401b7,
  0x60000000000000001006f00000001000000ba00000000000000000605050202060505050501010101010606060707020200020002000000004664003c003c00000000001e001900130010000e000000000000000001b8000000000000000001b800000000002420200000040a0c10c8040000000000000000000010008800028eab2a480000f4003c006e4901000000840020001e0f0f048c28fe00000000006e000101820000410f1e05056401b8,
  0x10101010101010101010101010101000000000000000000000000000000000000000000000000000001000100010001000100000000000000000000000000000000000000000000000000000000000000000000000000000000000000000000000000000000000000000000000000000000000000000000000000000000007f00000000000000000000000000000000000001b9,
  0x2f00000000a002000000f70173000000f700000173000000000000000005040402020504040505010101010104040405050302000300020000000037550037003700000000001e001900130010000e000000000000000001ba000000000000000001ba00000000000a00100402006a0c10080000000000000000000060b080020110c68ba003000438006400aa460100000097002e002e0b0b00321e7f0000000000000410026410076c5c236c5c3201ba,
  0x740000000041000000020b001c0000020b0000001c00000000000000000403030202040303050501010101010404040505010300010003000000002d550037003700000000001e001900130010000e000000000000000001bb000000000000000001bb0000000000001c08400080008d108406000000400000000000021002002301878760800000cd0046003c410100000018000800080e010532287f0000000000000004012d040f2d282a2d463a01bb,
  0x750000000041000000015100c900000151000000c900000000000000000403030202040303050501010101010303030404030100030001000000002d550037003700000000001e001900130010000e000000000000000001bb000000000000000001bc0000000000001c08400080008d10840600000040000000000002100200230187876080000230008c0090410100000018000800080e010532287f0000000000000008022d040f373252415a4401bc,
  0x760000000041000000015100c900000151000000c900000000000000000403030202040303050501010101010303030404030100030001000000002d550037003700000000001e001900130010000e000000000000000001bb000000000000000001bd0000000000001c08420080018d108417000000400000000e40021012082309978760830003b600be012c410100000018000800080e010532287f000000000000000c032d040f5550665f826c01bd,
  0xac000000000000000000220085000000220000002c000000000000000005040402020504040505010101010104040505050202000200030000000028500032002300000000001e001900130010000e000001040000000001be000000000000000001be00000000002002200800048a4c12cf7e00000000000000040002900008010897ab71083f041a003c004e440100000052002f00350f0f0532281f000000ea00ea00010132000055280528558701be,
  0x8600000000004000000199020e000001990000020e000000000000000003030202020303020505010101010103030304040202000200010000000028550032001e00000000001e001900130010000e0000012a0000000001bf000000000000000001bf0000000000200031020142018c3014810000000000000000000298028a010f868361803300ca0046003941010000009e002700500f0f0332191f0000000000000004014b010128233c28462801bf,
  0x87000000000041000000b302a1000000b3000002a100000000000000000505040202050504050502010101010403030303020200020001000000001e640032003200000000001e001900130010000e0000012b0000000001bf000000000000000001c00000000000200871472342038c303c810000008000000000000298028a010f8687618333021c007800b841010000009a0027005008050332191f0000000000000104022d080146735a466e4601c0,
  0x1000000011900f20000011900000119000000000000000004030302020403030505010101010104040405050203000200020000000028500032002800000000001e001900130010000e0000013a0000000001c1000000000000000001c10000000040001008000020818c120402000000000000000400021000002344858360800001ef0050004245010000009f002d002d050505321e7f0000000000000010018c04042a26204e484401c1,
  0x10000000059013d000000590000013d00000000000000000505040202050504050501010101010304040404020200020002000000002864003c003200000000001e001900130010000e0000013b0000000001c1000000000000000001c20000000840009c08000020818c12040200000000000000040002101c00234485836083000bb800c800b845010000009f002d002d050505321e7f0000000000000020023c040448442f76706c01c2,
  0x3200000800000001da0131000001da00000131000000000000000003030302020303030505010101010103030404040302000300020000000028500032002d00000000001e001900130010000e0000011d0000000001c3000000000000000001c30000000000000000364000238c5010010000000000000000400016000e01088687a180800078005000424601000000330061000409030532147f000000f50000001001780603371e415a322801c3,
  0x3300008800000001b80194000001b8000001b800000000000000000403030202040303050502010101010402030303030300030002000000003250003c003200000000001e001900130010000e0000011e0000000001c3000000000000000001c40000000088000000364040238c54140100000000000000064022961c0e03088687e183800267008200af4601000000330061000409030532147f000000f500000020022d10034b3c5f6e5a4601c4,
  0x52000080400000010d00cf0000010d000000cf00000000000000000303020202030302050501010101010202030303020100020001000000002850003c003200000000001e001900130010000e000000de0000000001c5000000000000000001c50000000008224211160100226c500480000000000000000000029c008e110e868be1803300e60046003c41010000008f0057006b080800640a7f0000011900000004018c0103283d32283d3001c5,
  0x53000080c0000001da005c000001da0000009d00000000000000000403030202040303050502010101010402030303020200020003000000002855003c003200000000001e001900130010000e000000df0000000001c5000000000000000001c60000000088224a11160100226c500481000000000000000000029e008e110e868be1833301bc008200ac41010000008f0057006b08080032147f0000011900000008024b0103415655416a5301c6,
  0x10101010101010101010101010101000000000000000000000000000000000000000000000000000001000100010001000100000000000000000000000000000000000000000000000000000000000000000000000000000000000000000000000000000000000000000000000000000000000000000000000000000000007f00000000000000000000000000000000000001c7,
  0x10101010101010101010101010101000000000000000000000000000000000000000000000000000001000100010001000100000000000000000000000000000000000000000000000000000000000000000000000000000000000000000000000000000000000000000000000000000000000000000000000000000000007f00000000000000000000000000000000000001c8,
  0x10101010101010101010101010101000000000000000000000000000000000000000000000000000001000100010001000100000000000000000000000000000000000000000000000000000000000000000000000000000000000000000000000000000000000000000000000000000000000000000000000000000000007f00000000000000000000000000000000000001c9,
  0x2e0000000000000061003d00000061000000610000000000000000030303020203030305050101010101040405050502020002000200000000325a003c003200000000001e001900130010000e000001620000000001ca000000000000000001ca0000000000100000000000000c1314780000000000000000800250000010239a8b600000028a00640045410100000029000b00210f0f0532197f00000000000004000119020a783c3232142d01ca,
  0x1f000000000010000000b50113000000b50000011300000000000000000403030202040303050501010101010303040405030100030001000000004164003c003200000000001e001900130010000e000000600000000001cb000000000000000001cb0000000000002002080000028c1000610000000000000000000010010004408a9b2a0c1101f90064004348010000002b0075007507010532147f000000f60000000401780e0b3c3e28323e3c01cb,
  0x2000000000001000000149003b00000149000001c4000000000000000005040302020504030505010101010103030304040202000200020000000014550032002d00000000001e001900130010000e000000610000000001cb000000000000000001cc000000000000208b080000028d100461000000000000000400021001080d488a9b6a0f13054b00dc00ad48010000002b0075007507010532147f000000f600000104023c0e0b555c3c4b5c5a01cc,
  0x1d000000008020000000c401a1000000c4000001d400000000000000000303030202030303050502020101010305030404020200020002000000003255003c003200000000001e001900130010000e000001250000000000d7000000000000000001cd0000000080020011160200228c1010f10000000000000000402098230e088dbe8ba583130154006e00b344010000007c002e002e05050323147f000000d900000044022d0e10552d7d41784601cd,
  0x6b00010008000001b301ae000001b3000001ae000000000000000004030302020403030505010101010103030304040102000100020000000032500032003200000000001e001900130010000e00000000000000000051000000000000000001ce0000000800498440001040000c180300000000800000000004051000000001860337430007080078010c4701000000940005002a0a0a003214ff000000e900000300031e080c5a823c73464601ce,
  0x3700010001000001b60032000001b60000003000000000000000000605050202060505050501010101010505050606030200030002000000004664003c003c00000000001e001900130010000e0000000000000000006c000000000000000001cf0000000800200121001020028c12877f00000000000000060002900008010a978bf18b3b057800aa00b449010000000d000c001401010032147f0000011700000003021e00005f50325f556e01cf,
  0xb9000011000000005901bc000000590000021100000000000000000606050202060605050501010101010303030404030300030002000000003255003c003200000000001e001900130010000e0000010a00000000006f000000000000000001d00000000841809c49420040899d30877f000000000000000f0002101f0a610a978fe0833f0b0c00f0010c4701000000780074001f05010532147f000000000000000c031e0504373728828c7301d0,
  0x5100000010000001b600f6000001b6000000f60000000000000000050404020205040405050101010101040404050503020003000200000000375f003c003c00000000001e001900130010000e00000000000000000072000000000000000001d100000000000021830a0000000c5204030000000000000006010210001a05088493e41b00050600c800bb4101000000900066002207070032147f0000000000000020021e0b0b326e327d646401d1,
  0x11000000000008000001b30009000001b30000000900000000000000000403030202040303050501010101010303030404010200010002000000002d550037003700000000001e001900130010000e000000000000000000ef000000000000000001d20000000020410001000000288c100f8600000000000000040407180008014b8283e3c33b056a00b4010e420100000048004e004e08080032193f000001420000000c031e0c0c555f5f437b4b01d2,
  0x14000000000102000001b40007000001b40000000700000000000000000403030202040303050501010101010303030404010200010002000000002d550037003700000000001e001900130010000e000000000000000000f0000000000000000001d30000000000000001008008388c10ad8600000000000000041002180018014ac487e12b2b02a800a0010e4001000000480031003108080032193f0000014300000300031e09095f7d53435f4b01d3,
  0x2000000031700ba00000317000000ba00000000000000000404030202040403050502020101010304020202020200020002000000003264003c002800000000001e001900130010000e000001030000000000af000000000000000001d400000000142c20300100045e6e1ac80600000000000000019080900088001b86e32e4f43017c0096011148010000006900200037060404320a1f0000000000000600031e02117378505f325501d4,
  0x10101010101010101010101010101000000000000000000000000000000000000000000000000000001000100010001000100000000000000000000000000000000000000000000000000000000000000000000000000000000000000000000000000000000000000000000000000000000000000000000000000000000007f00000000000000000000000000000000000001d5,
  0x51000000000010000000ca0049000000ca0000015c00000000000000000505040202050504050501010101010202030303020300020002000000002d55003c003200000000001e001900130010000e000000ca000000000085000000000000000001d6000000000024208218040402ac1020030000000000000000000090000004c386b3209f0400ff006400b84301000000220066006605050023231f0000000000000020022d0b0b413c5f826e4101d6,
  0x50000000000020000000c4023d000000c4000000c40000000000000000050504020205050405050101010101020203030303030003000300000000325a003c003200000000001e001900130010000e000000cb000000000085000000000000000001d7000000000024000000000402ac1020620000000000000000000090090008c38eab2083040103005000b84101000000730051005105050023231f0000000000000200022d0e0e5f82416e3c4101d7,
  0x10101010101010101010101010101000000000000000000000000000000000000000000000000000001000100010001000100000000000000000000000000000000000000000000000000000000000000000000000000000000000000000000000000000000000000000000000000000000000000000000000000000000007f00000000000000000000000000000000000001d8,
  0x9000000000000000000c400f6000000c4000000f600000000000000000504040202050404050501010101010303030303020300020002000000003255003c003c00000000001e001900130010000e0000004d0000000000dc000000000000000001d90000000840009c08000000800c120462000000000000000400021009006b008b8f6683000b5e00fa010945010000002f0051000c05050532147f000000000000000c0332040e3c465050826e01d9,
  0xd200000000000001b300b0000001b3000000b0000000000000000004030302020403030505010101010103030304040101000100010000000032500032003200000000001e001900130010000e00000000000000000089000000000000000001da00000000000a00300400004a8e181b600000000000000000200410c0700001860ba04b000154005a010c4001000000940058005b0a0a003214ff0000000000000300031e00004b875a46505501da,
  0x25000004600000000e01ab0000000e0000000e00000000000000000404030202040403050502010101010403030404020200020002000000003255003c003200000000001e001900130010000e0000007b000000000118000000000000000001db00000000902c2823132705664e300d830000000000000000c28299e088011fc6abee573b020800a0010348010000009a005000500b0805231400000000000000000c032d010d734150417d4401db,
  0x10101010101010101010101010101000000000000000000000000000000000000000000000000000001000100010001000100000000000000000000000000000000000000000000000000000000000000000000000000000000000000000000000000000000000000000000000000000000000000000000000000000000007f00000000000000000000000000000000000001dc,
  0x28000000006d00320000006d0000003200000000000000000606050202060605050501010101010202020304030200030002000000003255003c003200000000001e001900130010000e00000089000000000163000000000000000001dd0000000020080001040201660c104c620000000000000000000230c00a011ec68be0033b042a00dc0107440100000077002e002e0b0b0423197f000000f700000810032d070787412d87642d01dd,
  0x1b0000000020200000020c00c40000020c0000020c00000000000000000403030202040303050502010101010402020303030300030003000000003255003c003200000000001e001900130010000e00000051000000000169000000000000000001de0000000000080000000000630c900b620000000000000000008030090a08d0caab2e4310010a008200a8480100000082005100510a06003214fe0000000000000080024b070e46506e46504601de,
  0x2008000001b30256000001b3000001b30000000000000000040303020204030305050201010101050303030303030003000200000000325a003c001e00000000001e001900130010000e000001740000000001df000000000000000001df00000000000f00100400044a0c100300000000000000000024053000000003c603a640000003001e009a400603d9001a001a001a0b0b003214ff0000000000000140022d070c4d5f5b4d323201df,
  0x4000000000000000000000000000081000000000000000002020502020505050505010101010100000300000000000000020000000000000000002800000000000a000a0013000a000a000000000000000001e0000000000000000001e000000000140e303200020146ee1a4b000000000000000000008051e089001387132e4b380003001e012242010000001a001a001a0f0f058c50ff000000000000042003030d0d824b5f824b4b01e0,
  0x4000000000000000000000000000081000000000000000002020502020505050505010101010100000300000000000000020000000000000000002800000000000a000a0013000a000a000000000000000001e1000000000000000001e100000000140c303200020146ee184b600000000000000000008051e089001387232e43380003001e012249010000001a001a001a0f0f058c50ff000000000000050403030d0d69695069695001e1,
  0x4000000000000000000000000000081000000000000000002020502020505050505010101010100000300000000000000020000000000000000002800000000000a000a0013000a000a000000000000000001e2000000000000000001e200000000140c30320002016eee18cb040000000000000000008051e08f001387033e43380003001e012241010000001a001a001a0f0f058c50ff000000000000010803030d0d467d73467d4b01e2,
  0x400000000000000000000000000000e7000000000000000002020502020505050505010101010100000300000000000000030000000000000000002800000000000a000a0013000a000a000000000000000001e3000000000000000001e30000000800009c48c101cc008d108766000000c00000000c0002104200010987076843001aae021c015448010000008c002e002e0f0f050078ff000000000000030003030f0864965a78786401e3,
  0x42000000000000000000000000000191000000000000000002020502020505050505010101010100000300000000000000030000000000000000002800000000000a000a0013000a000a000000000000000001e4000000000000000001e40000000c00008809c10184000d10877e000000400000000c000210430881299f076843000d2001a4015446010000008c002e002e0f0f050078ff000000000000030003030f0a78966464785a01e4,
  0x101020000000000000000000000000101000000000000000002020502020505050505010101010100000300000000000000010000000000000000002800000000000a000a0013000a000a000000000000000001e5000000000000000001e50000000801009c48440048390c108406000000800000000400021010020100c48770ab0010cc00aa012c450100000031001200120f0f05640a7f0000000000000300030308096a824d6a5a5b01e5,
  0x10000000000000000000000000000000000000000000002020202020505050505010101010100000000000000000000000000000000000000000000000000000a000a000a000a000a000000000000000001e6000000000000000001e60000000861008c29000000800c1007020000000000000004000290018a010c860b68433b10680172014f480100000070007000700f0f050078ff000000000000000c030300006e50646ea06e01e6,
  0x220000000000000000000000000001a5000000000000000002020502020505050505010101010100000300000000000000030000000000000000002800000000000a000a0013000a000a000000000000000001e7000000000000000001e70000000000000c0a450284028d100f02000000400000000a00423002020001c64f2843401d4c01c20154440203de008c002e002e0f0f050078ff000000000000000303030f0778645a78649601e7,
  0x400000000000000000000000000005e000000000000000002020502020505050505010101010100000300000000000000030000000000000000002800000000000a000a0013000a000a000000000000000001e8000000000000000001e800000000000c2022000201460e100822000000000000000000001160300003868b2e4b0003580096012c42010000001a001a001a0f0f056478fe0000000000000c0003030d0d824b5578467801e8,
  0x1010101010101010101010101010100000000000000000000000000000000000000000000000000000100010001000100010000000000000000000000000000000000000000000000000000000000000000000000000000000000000000000000000000000000000000000000000000000000000000000000000000000000ff00000000000000000000000000000000000001e9,
  0x1010101010101010101010101010100000000000000000000000000000000000000000000000000000100010001000100010000000000000000000000000000000000000000000000000000000000000000000000000000000000000000000000000000000000000000000000000000000000000000000000000000000000ff00000000000000000000000000000000000001ea,
  0x1010101010101010101010101010100000000000000000000000000000000000000000000000000000100010001000100010000000000000000000000000000000000000000000000000000000000000000000000000000000000000000000000000000000000000000000000000000000000000000000000000000000000ff00000000000000000000000000000000000001eb,
  0x1010101010101010101010101010100000000000000000000000000000000000000000000000000000100010001000100010000000000000000000000000000000000000000000000000000000000000000000000000000000000000000000000000000000000000000000000000000000000000000000000000000000000ff00000000000000000000000000000000000001ec,
  0x1010101010101010101010101010100000000000000000000000000000000000000000000000000000100010001000100010000000000000000000000000000000000000000000000000000000000000000000000000000000000000000000000000000000000000000000000000000000000000000000000000000000000ff00000000000000000000000000000000000001ed,
  0x5000000000000000000000000000000000000000000000002020202020505050505010101010100000000000000000000000000000000000000000000000000000a000a000a000a000a000000000000000001ee000000000000000001ee000000001064202300800b7e6e30ab0400000000000000001000104079100bc4032a6b2b00280028012c4201000000a200a200a20f0f056478ff00000000000000030303090d64646464646401ee,
  0x10101010101010101010101010101000000000000000000000000000000000000000000000000000001000100010001000100000000000000000000000000000000000000000000000000000000000000000000000000000000000000000000000000000000000000000000000000000000000000000000000000000000001f00000000000000000000000000000000000001ef,
  0x10101010101010101010101010101000000000000000000000000000000000000000000000000000001000100010001000100000000000000000000000000000000000000000000000000000000000000000000000000000000000000000000000000000000000000000000000000000000000000000000000000000000001f00000000000000000000000000000000000001f0,
  0x10101010101010101010101010101000000000000000000000000000000000000000000000000000001000100010001000100000000000000000000000000000000000000000000000000000000000000000000000000000000000000000000000000000000000000000000000000000000000000000000000000000000001f00000000000000000000000000000000000001f1,
  0x10101010101010101010101010101000000000000000000000000000000000000000000000000000001000100010001000100000000000000000000000000000000000000000000000000000000000000000000000000000000000000000000000000000000000000000000000000000000000000000000000000000000001f00000000000000000000000000000000000001f2,
  0x10101010101010101010101010101000000000000000000000000000000000000000000000000000001000100010001000100000000000000000000000000000000000000000000000000000000000000000000000000000000000000000000000000000000000000000000000000000000000000000000000000000000001f00000000000000000000000000000000000001f3],
  [0x10101010101010101010101010101000000000000000000000000000000000000000000000000000001000100010001000100000000000000000000000000000000000000000000000000000000000000000000000000000000000000000000000000000000000000000000000000000000000000000000000000000000001f00000000000000000000000000000000000001f4,
  0x10101010101010101010101010101000000000000000000000000000000000000000000000000000001000100010001000100000000000000000000000000000000000000000000000000000000000000000000000000000000000000000000000000000000000000000000000000000000000000000000000000000000001f00000000000000000000000000000000000001f5,
  0x10101010101010101010101010101000000000000000000000000000000000000000000000000000001000100010001000100000000000000000000000000000000000000000000000000000000000000000000000000000000000000000000000000000000000000000000000000000000000000000000000000000000001f00000000000000000000000000000000000001f6,
  0x10101010101010101010101010101000000000000000000000000000000000000000000000000000001000100010001000100000000000000000000000000000000000000000000000000000000000000000000000000000000000000000000000000000000000000000000000000000000000000000000000000000000001f00000000000000000000000000000000000001f7,
  0x10101010101010101010101010101000000000000000000000000000000000000000000000000000001000100010001000100000000000000000000000000000000000000000000000000000000000000000000000000000000000000000000000000000000000000000000000000000000000000000000000000000000007f00000000000000000000000000000000000001f8,
  0x10101010101010101010101010101000000000000000000000000000000000000000000000000000001000100010001000100000000000000000000000000000000000000000000000000000000000000000000000000000000000000000000000000000000000000000000000000000000000000000000000000000000007f00000000000000000000000000000000000001f9,
  0x71000000000000002c002b0000002b0000002c00000000000000000403030202040303050501010101010404040505030100010003000000002d550037003700000000001e001900130010000e000000000000000001fa000000000000000001fa00000002046000000000040b0c30010000000000000000000020901c02010286a320c20000290028003745010000003200350048050503320f7f000000000000000401ff00002d19372d3c2d01fa,
  0x7200000000000000f2024700000247000000f200000000000000000403030202040303050501010101010303030404030300030003000000002d550037003700000000001e001900130010000e000000000000000001fa000000000000000001fb00000002046000000000040b0c30011000000000000000000020901c02010286a320c2000093005a008247010000007100920016050503320f7f00000000000000080278000041233c41504101fb,
  0x7300000000000000f2024700000247000000f200000000000000000403030202040303050501010101010303030404030300030003000000002d550037003700000000001e001900130010000e000000000000000001fa000000000000000001fc00000002046004000000048b0c30031000000000000000040020901c02010286a320c3000262007800fa47010000007100920016050503320f7f000000000000000c032d00005a2d505a6e5501fc,
  0x8000000001d4002d000001d40000000a00000000000000000303030202030303050501010101010303040405020300020002000000003255003c003200000000001e001900130010000e0000002c0000000001fd000000000000000001fd00000000040222100c000462ec10000000000000000000000020100207008186a3a1400400650028003846010000009e0054000705050032147f000000000000004001ff101025324225322901fd,
  0x88020000019001d4000001900000019000000000000000000404030202040403050501010101010303030304030200030002000000003255003c002d00000000001e001900130010000e0000002d0000000001fd000000000000000001fe00000000840222100c000462ec10000000000000000000000020102207008186a3a143040177006e009c46010000009e0054000705050032147f0000000000000080025a101032586a32584001fe,
  0x10101010101010101010101010101000000000000000000000000000000000000000000000000000001000100010001000100000000000000000000000000000000000000000000000000000000000000000000000000000000000000000000000000000000000000000000000000000000000000000000000000000000001f00000000000000000000000000000000000001ff,
  0x10101010101010101010101010101000000000000000000000000000000000000000000000000000001000100010001000100000000000000000000000000000000000000000000000000000000000000000000000000000000000000000000000000000000000000000000000000000000000000000000000000000000001f0000000000000000000000000000000000000200,
  0x10101010101010101010101010101000000000000000000000000000000000000000000000000000001000100010001000100000000000000000000000000000000000000000000000000000000000000000000000000000000000000000000000000000000000000000000000000000000000000000000000000000000001f0000000000000000000000000000000000000201,
  0x10101010101010101010101010101000000000000000000000000000000000000000000000000000001000100010001000100000000000000000000000000000000000000000000000000000000000000000000000000000000000000000000000000000000000000000000000000000000000000000000000000000000001f0000000000000000000000000000000000000202,
  0x10101010101010101010101010101000000000000000000000000000000000000000000000000000001000100010001000100000000000000000000000000000000000000000000000000000000000000000000000000000000000000000000000000000000000000000000000000000000000000000000000000000000001f0000000000000000000000000000000000000203,
  0x10101010101010101010101010101000000000000000000000000000000000000000000000000000001000100010001000100000000000000000000000000000000000000000000000000000000000000000000000000000000000000000000000000000000000000000000000000000000000000000000000000000000001f0000000000000000000000000000000000000204,
  0x4000000005e005f0000005e0000005f00000000000000000303030202030303050501010101010304040405020200020002000000002855003c002d00000000001e001900130010000e0000005a0000000002050000000000000000020500000000100c0022001201460e1208000000000000000000000010c030011382836e400000e9003c003a49010000008c001c006c050504320a7f000000000000000101be0d0d3743182d194c0205,
  0x204000000005e01190000005e0000011900000000000000000505040202050504050501010101010303030304020100020002000000002d55003c003200000000001e001900130010000e0000005b0000000002050000000000000000020600000000100c0022001201460e1208000000000000000000080010c030011382836e4300025d006e00aa49010000008c001c006c050504320a7f0000000000000002024b0d0d5f6b1d5537740206,
  0x2000000013a01930000013a0000013a00000000000000000303030202030303050501010101010303040505030300030003000000003255003c003200000000001e001900130010000e0000001a000000000207000000000000000002070000000000200000000000380c10300000000000000000008000100001000186c32000400015001e003547010000004f00690091040403320f7f000000000000000401ff02001e242b3237320207,
  0x2000000019300cf00000193000000cf00000000000000000403030202040303050501010101010303030404030200030003000000002d55003c003200000000001e001900130010000e0000001b000000000207000000000000000002080000000000200000000000380c10300000000000000000008000100001000186c32000400096003c007d47010000004f00690091040403320f7f0000000000000008027802002a32413e4d3e0208,
  0x20000000193016e000001930000016e00000000000000000504040202050404050501010101010303030304030100030001000000004164003c003200000000001e001900130010000e0000001c000000000207000000000000000002090000000002200004000000380c10300000000000000000008000100001000186c32003400122007800f447010000004f00690091040403320f7f000000000000000c032d020037415d5073500209,
  0x10101010101010101010101010101000000000000000000000000000000000000000000000000000001000100010001000100000000000000000000000000000000000000000000000000000000000000000000000000000000000000000000000000000000000000000000000000000000000000000000000000000000007f000000000000000000000000000000000000020a,
  0x10101010101010101010101010101000000000000000000000000000000000000000000000000000001000100010001000100000000000000000000000000000000000000000000000000000000000000000000000000000000000000000000000000000000000000000000000000000000000000000000000000000000007f000000000000000000000000000000000000020b,
  0x9a00001000000001df00bd000001df000001df000000000000000004040302020404030505010101010103040405050201000200010000000028500032002800000000001e001900130010000e000000a800000000020c0000000000000000020c0000000800009848000040000c100400000000000000000000021000004300818360000000b40028003841010000009f008500050a0a03320f7f000000ee00e5001001ff050519190f554b37020c,
  0x9b000010000000019800bd00000198000000bd00000000000000000404030202040403050501010101010303040404020300020003000000002855003c002800000000001e001900130010000e000000a900000000020c0000000000000000020d0000000800009848800040000c100400000000000000000400021000004300818360000003fc005a008941010000009f008500050a0a03320f7f000000ee00e5001402780505283214696946020d,
  0x9c00001000000001bc009d000001bc0000009d00000000000000000505030202050503050501010101010203030303030300030002000000002d550032002800000000001e001900130010000e000000aa00000000020c0000000000000000020e0000000880009c48800040800c1004000000000000000004000210000043408183700b000a2800aa010241010000009f002d00050a0a03320f7f000000ee00e5000c032d0505503c19828755020e,
  0x97000006000000005e015b0000005e0000005d00000000000000000303030202030303050501010101010404040505020200020002000000002d55003c002d00000000001e001900130010000e000000ae00000000020f0000000000000000020f00000000080c00320012017e2e12080000000000000000008000506045009382f3ae40400015002800414101000000560067006d040500320f7f000000000000004001be020d2b37482b2d41020f,
  0x9800000600000001740193000001740000017400000000000000000303030202030303050502010101010602030303030300030002000000002d55003c002d00000000001e001900130010000e000000af00000000020f0000000000000000021000000002080c00320012017e2e12080000000000000000008000506045009382f3ae43400069005a00954101000000560067006d040500320f7f0000000000000080022d020d374d723739430210,
  0x100000000e50132000000e50000013200000000000000000303030202030303050501010101010304040405030300030002000000002d55003c002800000000001e001900130010000e000000a6000000000211000000000000000002110000000040801008120040000c50040100000000000000000002100208230881836080000055001e0042470100000068009f009205050032147f0000000000000004017804042d1e4428553c0211,
  0x10000000020000e000000200000000e00000000000000000404040202040404050501010101010202030303020200020003000000003255003c003200000000001e001900130010000e000000a7000000000211000000000000000002120000000040801409120040000c50040100000080000000070002100208630881836083000194004600b2470100000068009f009205050032147f0000000000000008023c08044132583c876e0212,
  0x1500000000000000000130002d000001300000002d00000000000000000605050202060505050501010101010505050606010100010001000000004664003c003c00000000001e001900130010000e000000000000000002130000000000000000021300000000906820200002050ace128bf6000000000000000402809040880002868b2ecb3b0136006e01864901000000670090008306060432147f0000009e009b000202ff0000563c32563c670213,
  0x390000000000400000002b00740000002b00000153000000000000000003020202020302020505010101010103030404050202000200010000000028500032002800000000001e001900130010000e000000ab000000000214000000000000000002140000000000202801020100a00c3020800000000000000002000098008a010e868760803b007d003c003d470100000059007d003e08080346143f000000000000000401b4010123192337504b0214,
  0x3a000000000040000001530074000001530000015300000000000000000302020202030202050501010101010303040404030200030001000000001e55003c002800000000001e001900130010000e000000ac000000000214000000000000000002150000000040202801022100a00c3020800000000000000002000098008a010e868760803b01900078008e470100000059007d003e08080332143f0000000000000008025a01013228285569550215,
  0x3b00000000004000000167015300000167000001530000000000000000040303020204030305050101010101020203030302020002000200000000285a003c002800000000001e001900130010000e000000ad000000000214000000000000000002160000000040202801022100a00c3024800000000000000006000298008a410e868760833b0366008c00fd450100000059007d003e08080332143f000000000000000c032d010141372d5f8c690216,
  0x14a01550000014a00000033000000000000000003030302020303030505010101010104040505050302000300030000000032550032003200000000001e001900130010000e00000084000000000217000000000000000002170000000008104008000024080c5000180000000000000000000010000030408a8b210000002d0032003b41010000000b005d002102020332147f000000000000004001ff0a0a2832402832320217,
  0x14a003d0000014a0000003d000000000000000003030302020303030505010101010104040404040302000300020000000032500032003200000000001e001900130010000e00000085000000000217000000000000000002180000000008105108000024080c5000180000000000000000000210000030408a8b21000000aa0050008641010000000b005d002102020332147f00000000000000020278040a37414537414b0218,
  0x14a01880000014a0000019900000000000000000403030202040303050501010101010203030303030100030003000000004664003c002d00000000001e001900130010000e00000086000000000217000000000000000002190000000408107109020024080c5004980000000000000004000214008a31688a8b618313026c009600ff41010000000b008f002102020332147f0000000000000003032d040a4b554a4b5f690219,
  0x40000001e00074000001e0000001e000000000000000000505050202050505050501010101010203030303030200030003000000003255003c003200000000001e001900130010000e000000f800000000021a0000000000000000021a0000000000202821020100a00c3024820000000000000004000298000a010e868760823b022b008200a34001000000680027003e080800321400000000f100000002022d0101551e2d556478021a,
  0x400000017201ea000001720000017200000000000000000404040202040404050501010101010203030303020300020002000000002355003c002d00000000001e001900130010000e000000f900000000021b0000000000000000021b0000000080202821022100a00c3024800000000000000000000298000a010e868760823b01fe008c00a341010000006800270005080800321400000000f100000008022d01014b1e554b7d4b021b,
  0x10101010101010101010101010101000000000000000000000000000000000000000000000000000001000100010001000100000000000000000000000000000000000000000000000000000000000000000000000000000000000000000000000000000000000000000000000000000000000000000000000000000000007f000000000000000000000000000000000000021c,
  0x10101010101010101010101010101000000000000000000000000000000000000000000000000000001000100010001000100000000000000000000000000000000000000000000000000000000000000000000000000000000000000000000000000000000000000000000000000000000000000000000000000000000007f000000000000000000000000000000000000021d,
  0x10101010101010101010101010101000000000000000000000000000000000000000000000000000001000100010001000100000000000000000000000000000000000000000000000000000000000000000000000000000000000000000000000000000000000000000000000000000000000000000000000000000000007f000000000000000000000000000000000000021e,
  0x4a0001080000000156006700000067000001560000000000000000050404020205040405050101010101050505060602030003000300000000375f003c003c00000000001e001900130010000e0000000000000000021f0000000000000000021f0000000008000000025040000cd01000000000000000000000003400020000848321088000350028003440010000000300440026030303320f7f000000f50000001001ff0306271e393b2d1e021f,
  0x4b00010800000001da005c0000005c000001da0000000000000000050404020205040405050101010101040404050502030003000200000000375f003c003c00000000001e001900130010000e0000000000000000021f000000000000000002200000000008000000025040000cd01000000000000000000000003400020000848321088002490078007e47010000000300440026030303320f7f000000f500000020027803064f282f6337280220,
  0x4c00010800000001da005c0000005c000001da000000000000000003030202020303020505020201010102020203030203000300020000000028460028002800000000001e001900130010000e0000000000000000021f00000000000000000221000000008800000012504080bcd014010000000000000005000236000601008483618b8007d500fa00f34001000000030044002603030332147f000000f5000000c0032d030645377059643c0221,
  0xa80000000000100000011b004e0000011b0000024800000000000000000303030202030303050501010101010304040404030300030002000000002d55003c003700000000001e001900130010000e00000106000000000222000000000000000002220000000010002002080000204c100000000000000000000003001000000083a4b32808000006001e00384301000000220097009e06070032147f000002210000004001be110b3225423c1b280222,
  0xa900000000001000000249004a000002490000011b00000000000000000404030202040403050501010101010203030304030300030002000000003255003c003200000000001e001900130010000e00000107000000000222000000000000000002230000000016002002080000224c100800000000000000000003001040090083a4b3aa0b000042004600a84301000000220097009e06070032147f0000022100000080024b110b4b4d7455433c0223,
  0xc900000010000000ca012a000000ca0000012a000000000000000004030302020403030505010101010103030304040201000200010000000032500032003200000000001e001900130010000e00000000000000000224000000000000000002240000000100002082080000004c10000000000000000000000000100000000284b3280c00004200320038430100000066001400220707003214fe000002210000010001be0b0b32461e32232d0224,
  0xca00000010000000ca012a000000ca0000012a000000000000000004030302020403030505010101010103030304040201000200010000000032500032003200000000001e001900130010000e00000000000000000224000000000000000002250000000100002082080400004c10000100000000000000000100100000000284b32a1f0000a3006e00a8430100000066001400220707003214fe0000022100000200024b0b0b4b6e5a4b3c460225,
  0x40000000004004000002c600c4000002c6000000610000000000000000050504020205050405050201010101020203040403020003000200000000325a003c003200000000001e001900130010000e0000009a000000000226000000000000000002260000000600100020000020a90c31103800000000000000000000100804b0259a8f20000000b4006400a1430203f10068005b00780c0c0032287f000000000000008002190a0a375062415c460226,
  0xb0000089000000002c001c0000001c0000002c00000000000000000403030202040303050501010101010404040505030300030003000000002d550037003700000000001e001900130010000e00000000000000000227000000000000000002270000000000021808040000298c502400000000000000000000229014060300a187e0800000980046003a4501000000530099001605050332147f000000f00000000401b410042323412348320227,
  0xb100008900000002a9005900000059000002a900000000000000000403030202040303050501010101010303030404030100010003000000002d550037003700000000001e001900130010000e00000000000000000227000000000000000002280000000000023808040000298c5024800000000000000006002298160e030ca187e08003014e0064007b4501000000530099001605050332147f000000f000000008025a10042d2d4a2d523c0228,
  0xb20000c900000002a9005900000059000002a900000000000000000403030202040303050501010101010303030404030100010003000000002d550037003700000000001e001900130010000e000000000000000002270000000000000000022900000000e0023809442180a98d5024820000000000000006002298160e030ca187e0830303c3009601044001000000530099001605050332147f0000000000f0000c032d100446415c50755f0229,
  0x67000000000000000001a8020e000001a8000000fd00000000000000000303030202030303050501010101010404040405030200030001000000002855003c002800000000001e001900130010000e0000016f00010001022a0000000000000000022a0000000000202020009008b84c10a004000000000000000000001010090108c483e0a80b0177003c003f400203f200270037003705050332147f0000000000000004017809092d0f322d5a46022a,
  0x68000000008402000001a8020e000001a8000001a800000000000000000303030202030303050501010101010303040404030300030002000000003255003c003200000000001e001900130010000e0000017000010001022a0000000000000000022b0000000800202c21009148fc4c30ac060000000000000000100210103b0108c483e0ab0b03a1008200a8400403f300a1007d007d05050332147f0000000000000008023c0909371e5f378c69022b,
  0x10000000ca023c000000ca0000002a00000000000000000505040202050504050501010101010203030303030300030003000000003255003c003200000000001e001900130010000e0000012800000000022c0000000000000000022c00000000800020820a0004080c90000000000000000000000100100084144286932908800118006400a14301000000720022000b07070032147f000000ef0000020002ff0b0b436a3c43564b022c,
  0x7a000008000000009d006e0000009d0000006e00000000000000000404030202040403050501010101010202030303030200030002000000003255003c002800000000001e001900130010000e0000005600000000022d0000000000000000022d0000000000001800120040000c90040100000000000000000002100200430081836088000091001e0041400100000085004b00050a030032147f000000ee0000001001be0506232337554132022d,
  0x7b00001800000001f8006e000001f8000001f800000000000000000404030202040403050501010101010203030303020100020001000000003264003c003c00000000001e001900130010000e0000005700000000022d0000000000000000022e0000000800009800120040000c9004010000000000000004000210020043008183609b0007d0008c00aa400100000085004b00050a030032147f000000ee00000020024b05064b412d7d6946022e,
  0xa10000804000000173001c000001730000001c00000000000000000202020202020202050501010101010202030405020300020001000000003264003c002800000000001e001900130010000e000000e000000000022f0000000000000000022f0000000000222c214609c0218c5200800000000000000000002098008e018ca687e0803b0076003c00464201000000160099003d0e0500230f7f000001270000000401b40110462330464b32022f,
  0xa20000804000000118017300000118000000b800000000000000000403020202040302050501010101010202020303020200020001000000002d5a003c004100000000001e001900130010000e000000e100000000022f000000000000000002300000000080222c214629c0218d5200800000000000000000002098008e018ca687e0833b012c006e00ab4001000000160099003d0e0500320f7f0000012700000410025a0110732d3a735a410230,
  0x6000000005e01420000005e0000014200000000000000000404040202040404050501010101010203030303030200030001000000003255003c003700000000001e001900130010000e00000129000000000231000000000000000002310000000010040062040211560e10082000000000000000008000116050001182cbae4b40008c008c00ac44010000006e0062009304040032147f0000000000000200022d020d506761503a480231,
  0x20000000018f01360000018f0000013600000000000000000303030202030303050501010101010404040405030300030003000000002855003c002d00000000001e001900130010000e00000147000100010232000000000000000002320000000000080032044241420c1008000000000000000000000030c0020090c283a80000000f0032003d440203f60098009800980b0a0032197f000000f70000001001be070741371e551e260232,
  0x2000000000f701d7000000f7000001d700000000000000000505040202050504050501010101010303030404030200030001000000003255003c003200000000001e001900130010000e00000149000100010232000000000000000002330000000800082032044241420c1008000000000000000000004030c2320094c287a8030002fd00aa00a9420100000098009800980b0a0032197f000000f700000020025a0707695f1e91323a0233,
  0x930000000010000000009d00ae0000009d000000ae0000000000000000050404020205040405050101010101040404050501010001000100000000375f003c003c00000000001e001900130010000e00000000000000000234000000000000000002340000000400101828000060018c11047a00000000000000000002100020e120938b60800000a50046004741010000002100050074090200321e1f0000000000000010012d050a2d3516674e360234,
  0x940000000010000000009d00ae0000009d000000ae0000000000000000050404020205040405050101010101040404050501010001000100000000375f003c003c00000000001e001900130010000e00000000000000000234000000000000000002350000000400101c29000060818c1104fa0000000000000000000a100020e120938b608300032a007800ad41010000002100050074090200321e1f0000000000000020022d050a415320856c4a0235,
  0x950000000092000000009d00610000009d0000006100000000000000000403030202040303050501010101010303030404010100010001000000002d550037003700000000001e001900130010000e000000000000000002360000000000000000023600000000000818284000c0398c10140000000000000000000002500205510181c7608000005f0032004742010000008100810081090400321e1f0000000000000004012d02052d4a462d70370236,
  0x960000000092000000009d00610000009d0000006100000000000000000403030202040303050501010101010303030000010100010001000000002d550037003700000000001e00190013000a000a000000000000000002360000000000000000023700000000000818294000c0398d10140000000000000000008002500205510181c76083400140008c00b142010000008100810081090400321e1f0000000000000008022d020541706e418c4b0237,
  0x80000001b900bc000001b90000007c00000000000000000303020202030302050501010101010404040505030300030002000000002850003c003200000000001e001900130010000e0000009d0000000002380000000000000000023800000000080042000c4000000cd200000000000000000000000014008240008693b000000136003c004243010000006a003c00010a0a0032147f000000fb0000004001be03033e28413e32320238,
  0x80000001da005c000001da000001da00000000000000000605040202060504050501010101010303040404020300020003000000002855003c002d00000000001e001900130010000e0000009e0000000002380000000000000000023900000008080042010c4000000cd209020000000000000004000016008a40008693b10b00043100be00a643010000006a008500010a0a0032147f0000011900fb0008023c0303523c4b525f500239,
  0x57000088020000021b01030000021b00000103000000000000000004030302020403030505010101010103030304040302000300020000000032500032003200000000001e001900130010000e0000000000000000023a0000000000000000023a00000000000220100402046a0c50100100000000000000000020b0000f10958687a08000007d004600424701000000950095009505050332191f0000000000000100014b1010285041284128023a,
  0x58000088020000021b01030000021b00000103000000000000000004030302020403030505010101010103030304040302000300020000000032500032003200000000001e001900130010000e0000000000000000023a0000000000000000023b00000000800220110402046a4c50108500000000000000000020b8020f10958687a08303032b00a000b34701000000950095009505050332141f0000000000000200022d10103c78693c693c023b,
  0x200000021d00cc0000021d000000cc00000000000000000504030202050403050501010101010203030404020200020001000000001e500032002800000000001e001900130010000e0000003200000000023c0000000000000000023c000000001420220008020408cc10010000000000000000000010900009008386a3a8c000003a0028003c47010000005c00650038050504320fbf000000000000004001ff000028284b283237023c,
  0x200000015e021d0000015e0000015e000000000000000004040302020404030505020202010106060c0304020200020002000000003255003c002800000000001e001900130010000e0000003300000000023c0000000000000000023d000000001420220108020408cc10030000000000000000000010900009448386a3aac300004b003200a547010000005c00650038050504320fbf0000000000000080023c00003c41733c5f4b023d,
  0x33000000000400000000cc00cc000000cc000000cc0000000000000000040303020204030305050101010101030304040502010002000100000000325a003c003c00000000001e001900130010000e0000010b00000000023e0000000000000000023e00000000000e20320402016e0e1009000000000000000000000011402a018282a3ee4000003a0028003a46010000001700ac00770808033214bf000000000000040001c80d0d41372d321e2d023e,
  0x34000000000400000001d900cc000001d9000001d900000000000000000403030202040303050501010101010203030304020300020003000000002d550032003200000000001e001900130010000e0000010c00000000023e0000000000000000023f00000000000e20320402016e0e1009000000000000000000000011402a018282a3ee400000b40046008946010000001700ac00770808033214bf000000000000080002640d0d554b37462d3c023f,
  0x350000000004000000005e01de0000005e000001de00000000000000000403030202040303050502010101010302020303020100020001000000003264003c003200000000001e001900130010000e0000010d00000000023e0000000000000000024000000000000e20320402116e0e1009000000000000000000000019402a019a82a3ee430001b8009600f546010000001700ac00770808033214bf0000000000000c0003320d0d6e5f415f37460240,
  0x36000000010400000001d801d8000001d8000001d800000000000000000505040202050504050501010101010303040404010100010001000000001e550032003200000000001e001900130010000e0000010e0000000002410000000000000000024100000000000c0062001241464e100a000000000000000000080010c030011282a36e4000000a001e003a4301000000900062008e0b0b0332147f000000000000010001c80d0d326914281e2d0241,
  0x370000000104000000003c01d80000003c000001d800000000000000000404040202040404050501010101010303030404030100030001000000003250003c003c00000000001e001900130010000e0000010f0000000002410000000000000000024200000000000c0062001241464e100a000000000000000000080010c030011282a36e40000050003c00824301000000900062008e0b0b0332147f000000000000020002640d0d3c7d1e3228410242,
  0x380000000104000000005e01d80000005e000001d800000000000000000505040202050504050501010101010203030303030200030001000000002850003c003c00000000001e001900130010000e000001100000000002410000000000000000024300000000000c2063001241c64e100a000000000000000000080010c0b8011282a36e433900c9006400f54301000000900062008e0b0b0332147f000000000000030003320d0d557d1e4b416e0243,
  0x10101010101010101010101010101000000000000000000000000000000000000000000000000000001000100010001000100000000000000000000000000000000000000000000000000000000000000000000000000000000000000000000000000000000000000000000000000000000000000000000000000000000007f0000000000000000000000000000000000000244,
  0x10101010101010101010101010101000000000000000000000000000000000000000000000000000001000100010001000100000000000000000000000000000000000000000000000000000000000000000000000000000000000000000000000000000000000000000000000000000000000000000000000000000000007f0000000000000000000000000000000000000245,
  0x16000000000000000001a300c4000001a3000000c400000000000000000404030202040403050501010101010203040405020200020001000000002850003c002d00000000001e001900130010000e00000048000000000246000000000000000002460000000000080040000044280c1000600000000000000000000010010008108a8b32000000390028003d480100000085005100730a0a0532147f000000f60000010001ff0e0e3c412c3232240246,
  0x170000000000000000003b00b50000003b000000b500000000000000000404030202040403050501010101010202030303020200020002000000003264003c002800000000001e001900130010000e00000049000000000246000000000000000002470000000000080040000044280c1000600000000000000000000010010008108a8b320000019a006e008a480100000085005100730a0a0532147f000000f60000020002780e0e4b503b4141330247,
  0x18000000000000000000c4003b000000c40000003b0000000000000000040403020204040305050201010101030202030302030002000300000000325a003c002800000000001e001900130010000e0000004a000000000246000000000000000002480000000000080040000044280c100060000000000000000000001001000850aa8b320300023f0082010c480100000085007500730a0a0532147f0000000000f60300032d0e0e5f6e4f555f470248,
  0x10101010101010101010101010101000000000000000000000000000000000000000000000000000001000100010001000100000000000000000000000000000000000000000000000000000000000000000000000000000000000000000000000000000000000000000000000000000000000000000000000000000000007f0000000000000000000000000000000000000249,
  0x10101010101010101010101010101000000000000000000000000000000000000000000000000000001000100010001000100000000000000000000000000000000000000000000000000000000000000000000000000000000000000000000000000000000000000000000000000000000000000000000000000000000007f000000000000000000000000000000000000024a,
  0x6600000208000000d10071000000d100000071000000000000000003020202020302020505020201010102020203030301000300010000000028460028002800000000001e001900130010000e0000000000000000024b0000000000000000024b000000000041000200000020ec1013000000000000000000a005500049000382a322480000320028009648010000004e0009000905050032147f000000000000008002c8020c3c4b673c4b37024b,
  0x5f004200000000000000af0195000000af000000af00000000000000000303030202030303050501010101010404040405020300020002000000003255003c003200000000001e001900130010000e0000011100000000024c0000000000000000024c0000000000800002320040005c1000010000000000000000400010000000008297210000003b0032003f410100000063003d0044030300320f7f000000000000000401c806062d283c2d4b32024c,
  0x60004300000000000001700194000001700000017000000000000000000604040202060404050501010101010203030404020300020002000000002855003c002800000000001e001900130010000e0000011200000000024c0000000000000000024d0000000000800403322040205c3010010000008000000003400810000000048297210300014a006400ad47010000008e004b0044030300320f7f0000000000000008024b0806693c14698746024d,
  0x4d00000000000000ca011300000113000000ca00000000000000000605050202060505050501010101010505050606020100010002000000004664003c003c00000000001e001900130010000e0000000000000000024e0000000000000000024e0000000100022002080000000c5000020000000000000000000014000200008693200800000a0014003b480100000090001b001b07070032147f000000570056000101be030b37370f2d3745024e,
  0x4e00000000000000ca011300000113000000ca00000000000000000605050202060505050501010101010505050606020100010002000000004664003c003c00000000001e001900130010000e0000000000000000024e0000000000000000024f0000000100022002080000000c5000020000000000000004010034000200008693200b000069003c00a2480100000090001b001b07070032147f0000005700560002024b030b50551e465572024f,
  0xc000002000000000f701b1000000f7000001b100000000000000000504030202050403050501010101010303040505030100030001000000002850003c003200000000001e001900130010000e00000131000000000250000000000000000002500000000010104002040000620c510878000000000000000000003040008030da9b280000014a007800434801000000060082000b0b0b0032147f000000000000040001be070a5541283228370250,
  0xc100002000000001f701b1000001f7000001b100000000000000000504040202050404050501010101010203030304030100030001000000003c55003c003200000000001e001900130010000e00000132000000000250000000000000000002510000000010104002040020620c510878000000000000000000003040008030da9b280300054600dc00a84801000000060082000b0b0b0032147f0000000000000800023c070a69553c463c640251,
  0x10101010101010101010101010101000000000000000000000000000000000000000000000000000001000100010001000100000000000000000000000000000000000000000000000000000000000000000000000000000000000000000000000000000000000000000000000000000000000000000000000000000000007f0000000000000000000000000000000000000252,
  0x5d000000000808000001e6020f000001e60000020f00000000000000000303020202030302050501010101010304040505030300030002000000003255003c002800000000001e001900130010000e00000040000000000253000000000000000002530000000000410002320000000c1411000000000000000000000512004010018293a340800006000a0040420100000044007f000e03030032147f000000000000004001be0c06323941322f320253,
  0x5e000000000808000001b3020f000001b3000001b300000000000000000404040202040404050502010101010603030404030300030002000000003255003c003200000000001e001900130010000e00000041000000000253000000000000000002540000000080410002320000000c1413000000000000000000000512004010018293a34380008f005000a5420100000044007f000e03030032147f0000000000000080024b0c063c616c3c4d460254,
  0xb30000000100000000002a00ae0000002a000000ae00000000000000000303030202030303050501010101010304040404030200030002000000002855003c002800000000001e001900130010000e000000bd0000000002550000000000000000025500000000000014420a1040000c900100000000800000000000001000060404849330488000bc003c003d4701000000a000a000a00a070032147f000001200000001001ff080b56180a5b322c0255,
  0xb4000000010000000001b600ae000001b6000000ae00000000000000000404040202040404050501010101010203030303030300030002000000002d55003c003200000000001e001900130010000e000000be00000000025500000000000000000256000000080000b5420a1040000c9003010000008000000002000210020604048593304b80044c006400ab47010000006b00a000a00a070032147f0000012000000020025a080b743614835e4a0256,
  0x100080000022001fc00000220000001fc00000000000000000302020202030202050502020202021012121414030200030002000000002850003c002800000000001e001900130010000e00000071000000000257000000000000000002570000000000400040800040080c100100000000800000000000011000040000810321410000d2001e003c47010000001d003a00390a0a033214ff0000000000000010018208083c2d1e4637280257],
  [0x100080000022001fc00000220000001fc00000000000000000303020202030302050502020202020a0c0e1010030200030002000000002855003c003200000000001e001900130010000e00000072000000000257000000000000000002580000000000480040800040080c100100000000800000000000011000040000810321410001fe003c009a47010000001d003a00390a0a033214ff0000000000000020023c08085546325f503c0258,
  0x100080000022001fc00000220000001fc0000000000000000040403020204040305050202020202080a0e101002020002000200000000325f003c003200000000001e001900130010000e00000073000000000257000000000000000002590000000000480040800040080c1003000000008000000000040110400400008103214300032a003c010447010000001d003a00390a0a033214ff0000000000000030031e080855465a73643c0259,
  0x10101010101010101010101010101000000000000000000000000000000000000000000000000000001000100010001000100000000000000000000000000000000000000000000000000000000000000000000000000000000000000000000000000000000000000000000000000000000000000000000000000000000007f000000000000000000000000000000000000025a,
  0x10101010101010101010101010101000000000000000000000000000000000000000000000000000001000100010001000100000000000000000000000000000000000000000000000000000000000000000000000000000000000000000000000000000000000000000000000000000000000000000000000000000000007f000000000000000000000000000000000000025b,
  0x10101010101010101010101010101000000000000000000000000000000000000000000000000000001000100010001000100000000000000000000000000000000000000000000000000000000000000000000000000000000000000000000000000000000000000000000000000000000000000000000000000000000007f000000000000000000000000000000000000025c,
  0x14000000003c015b0000003c0000015b00000000000000000302020202030202050501010101010404040505030300030002000000002850003c003200000000001e001900130010000e0000011500000000025d0000000000000000025d00000000000c00320402114a0e1019000000000000000000000010c030011082c3ef4000005a00320043410100000094001c008c08080032147f000000000000010001ff0d0d37551e373737025d,
  0x14000000005e015b0000005e0000015b00000000000000000403030202040303050501010101010203030304030300030003000000002d5a003c003200000000001e001900130010000e0000011600000000025d0000000000000000025e00000000000c00720402114e0e1819000000000000000000080010c030011082c3ef43000159006400aa450100000094001c008c08080032147f0000000000000200025a0d0d5f7d284b4b4b025e,
  0x3000000000280200000034006d000000340000006d00000000000000000303020202030302050501010101010404040405030300030003000000003255003c002800000000001e001900130010000e0000011f00000000025f0000000000000000025f0000000000080002040208720c108804000000000000000010003040020010c483a82800001f001e0037480100000097003100120b0b0332147f000000000000010001be0907374114371e32025f,
  0x310000000028020000006d01050000006d0000005300000000000000000404030202040403050501010101010303030404020200020001000000003255003c003200000000001e001900130010000e0000012000000000025f000000000000000002600000000000080002040208720c108804000000000000000010003040020010c483a828000082003c0082440100000097003100120b0b0332147f0000000000000200025a09073c5f373c283c0260,
  0x320000000028020000025300f7000002530000006b000000000000000004030302020403030505020101010104020303030303000300020000000032550032003200000000001e001900130010000e0000012100000000025f000000000000000002610000000000080002040208720c108804000000000000000010003040020010c483a82b00015700640104440100000097003100120b0b0332147f0000000000000300032d09075a91505a373c0261,
  0x400000000212015d000002120000015100000000000000000303030202030303050501010101010404040405030200030003000000003255003c003200000000001e001900130010000e00000144000000000262000000000000000002620000000000000000520880a18d3020010000004000000008400010000e0101868720820000b4003c004043010000007f0068004f0e010523287f0000000000000004014b0f0f281e393c572e0262,
  0x40000000021202a10000021200000151000000000000000004030302020403030505010101010104040404040302000300020000000032550032003200000000001e001900130010000e00000145000000000262000000000000000002630000000000000000520880a18d302081000000400000000c400010020e0101868720820001680064009043010000007f0068004f0e010523287f0000000000000008023c0f0f3228434675420263,
  0x40000000000c000e0000000c0000000e0000000000000000040303020204030305050201010101030303030302030002000100000000325a003c003200000000001e001900130010000e00000146000000000262000000000000000002640000000000002001522880a18d302491000000400000000e402210220e01098687608300041f00b4010e42010000007f0068004f0e010523287f000000000000000c032d0f0f463c615a934c0264,
  0x790000000000000000020c00b50000020c000000b500000000000000000303030202030303050501010101010404040405030300030002000000002d55003c002d00000000001e001900130010000e00000117000000000265000000000000000002650000000004002000000000804c1000f000000000000000000000100b0c81008aab20801300550032003d48010000009b00ca005105050032147f000000000000000401780e0e283c282846370265,
  0x7a000000000000000001a3022c000001a30000022c00000000000000000404030202040403050501010101010303030304020300020002000000002855003c003200000000001e001900130010000e00000118000000000265000000000000000002660000000c8400a801000100a04c1000f100000000000000000002100b0c89288aaf6083130a28010400b148010000002100ca005105050032147f0000000000000008023c0e0e50463250825f0266,
  0x1e0000000000200000003a00970000003a00000097000000000000000005040402020504040505010101010104040405050301000300010000000037550037003700000000001e001900130010000e00000000000000000267000000000000000002670000000000000040020040000c1000600000000000000000000050010008008a0b36090005c8006e00b441010000001a001a001a0a0a003219ff000000f60000080002190e0e875f693232500267,
  0x610040000008000000020a00970000020a0000020a00000000000000000303030202030303050501010101010304040405020300020002000000002855003c002d00000000001e001900130010000e00000113000000000268000000000000000002680000000000000002204000006cd400020000000000000000000014002020008293200000004d0028003d40010000008e004b005d030300320f7f000000000000001001c806064128195528320268,
  0x620041000008000000020a00680000020a0000019500000000000000000302020202030202050502020101010406030303030300030002000000002d55003c002800000000001e001900130010000e00000114000000000268000000000000000002690000000008000003204000006cf41002000000000000000000001400b12001839320030000fd005000ad400100000054003c005d030300320f7f0000000000000080024b06063c64912846500269,
  0x80000000005a01b30000005a0000005a00000000000000000403030202040303050501010101010303030404030300030002000000001e500032003200000000001e001900130010000e000000e200010001026a0000000000000000026a0000000000125808000020080c500710000000000000000424061000023104838360c000006e004600a5450203fd0008000700090b020046147f000000ed00000002024b0c0463512054426d026a,
  0xa30000004000000199018b000001990000018b00000000000000000403030202040303050501010101010303030404030300030003000000002d550037003700000000001e001900130010000e0000000000000000026b0000000000000000026b0000000000282801032300202c30308100000000000000000000d8008b110f868364800300c8005a00464201000000780090002708050332197f000000000000000401b4010132374132552d026b,
  0xa40000004000000199018b000001990000018b00000000000000000403030202040303050501010101010303030404030300030003000000002d550037003700000000001e001900130010000e0000000000000000026b0000000000000000026c0000000000282801032302202c30308100000000000000020000d8008f110f86836483030163008c00b34601000000780090002708050332197f0000000000000008022d01013c5f693c7d41026c,
  0x77003f0000c2000000015100f200000151000000a300000000000000000403030202040303050501010101010303030404030300030003000000002d550037003700000000001e001900130010000e0000000000000000026d0000000000000000026d0000000000001641440080b18d5004160000004000000004002290160a01048687608329056e00a000aa400100000068007d0018010e00321e7f000000fa00000008022d0f0f5a3c305a784d026d,
  0x990000000021000000005900df000000590000000500000000000000000504030202050403050501010101010202030404030200030002000000002850003c002800000000001e001900130010000e0000005800000000026e0000000000000000026e000000000008b009001040820c100ca000000000000000040042180088011a820bf8803b03980064003d430100000063006700590a0a003219ff0000010d0000000401be0704322323324a3b026e,
  0x9a00000000210000000059014e00000059000001450000000000000000040403020204040305050101010101020203030303020003000200000000325a003c003200000000001e001900130010000e0000005900000000026e0000000000000000026f000000086108b869003040c20c100da200000000000000040042180088011a820bf88b7b0ce4011800a9430100000063006700590a0a003219ff0000010d00000008025a0704503737507c59026f,
  0x1d00008000000000a3000e000000a30000000e00000000000000000504040202050404050501010101010303030404030300030001000000002d5a003c002800000000001e001900130010000e000000f6000000000270000000000000000002700000000000023400160040200c1000810000008000000000402098220e010ca387a1c00000660032004440010000002e0027008008080023147f00000000000000040178081028283c46552d0270,
  0x1e000080000000000c000e0000000c0000000e000000000000000004040302020404030505010101010102030303030302000300020000000032550032003200000000001e001900130010000e000000f7000000000270000000000000000002710000000080023c01160040200c1000810000008000000000c02098220e010ca387a1c30002bc00a000ac40010000002e0027008008080023147f0000000000000008022d0810463c46647d410271,
  0x3500008000000002a3000e000002a30000000e00000000000000000403030202040303050501010101010303030404030200030002000000002d550037003700000000001e001900130010000e000000000000000002720000000000000000027200000000c0600c20022000a81d322413000000000000000500029000062104868760020003b200a000ac45010000002b009d007805050032147f0000000000000008022d00005f28375f6e5f0272,
  0xb300000200000001d4016e000001d40000016e00000000000000000403020202040302050501010101010303030404020100020001000000002864003c003200000000001e001900130010000e00000119000000000273000000000000000002730000000002200024002100900c10100000000000000000008000900205010186c7600040006900320046480100000037007d0033040405321400000000000000000401be020032253c3253460273,
  0xb4000002000000019301d400000193000001d40000000000000000040303020204030305050101010101020303030303030003000100000000285a003c003200000000001e001900130010000e0000011a000000000273000000000000000002740000000002200424002100900c10100000000000000000008000900205010186c7600340019a009600b3400100000080007d00330404053214000000000000000008023c02004b39504b7b640274,
  0xb50000820000000193016e0000016e0000014e0000000000000000050504020205050405050101010101030303040401010001000300000000325a003c003200000000001e001900130010000e0000011b000000000275000000000000000002750000000000020014040040320c10000000000000000000008020900007018186c7a00040005a0032004a450100000085008e00910404052314fe000000000000001001be0210412d3c4b37460275,
  0xb6000082000000016e014e0000016e0000016e000000000000000006050502020605050505010101010102020303030102000100010000000032640046003c00000000001e001900130010000e0000011c000000000275000000000000000002760000000000020014040040320c10000000000000000000008020900007018186c7a00340018b007800b3450100000085008e00910404052314fe0000000000000200023c02105f375069416e0276,
  0x66000000000102000002a801d4000002a8000002a800000000000000000404040202040404050501010101010203030303030300030002000000003264003c003200000000001e001900130010000e0000013d000000000277000000000000000002770000000080000001008008b00c128086000000000000000600001002880100c693a0aa280244008c00a94001000000490012005205050032147f0000000000000200025a09094269414261550277,
  0x650000000008000000000c00f20000000c000000610000000000000000020202020202020205050201010101030304040402030002000200000000325a003c003c00000000001e001900130010000e0000013c000000000278000000000000000002780000000000000c42100040812c101000000000800000000400009006000102a18361c200014a001e00a94701000000360037004403030032147f0000000000000020025a080630306d706d3a0278,
  0x8800000000000000000174020e000001740000002c00000000000000000404030202040403050501010101010303040404020200020003000000003255003c002800000000001e001900130010000e00000182000000000279000000000000000002790000000000200038440004a90d10200200000040000000000000101c0400008687a1400000ad0050003c410100000037003700370e0e0523287f0000000000000004012d0f10322d263241340279,
  0x89000000000000000001a601a8000001a6000001a600000000000000000404040202040404050501010101010202030303030300030003000000003255003c003200000000001e001900130010000e000001830000000002790000000000000000027a0000000000200038440004a90d10200200000040000000000000101c040002a687a1400001f4008c0093410100000037003700370e0e0523287f0000000000000008022d0f1046413a465548027a,
  0x8a000000004200000000a101a1000000a1000000a100000000000000000505040202050504050502020101010406020303030300030002000000003255003c003c00000000001e001900130010000e000001840000000002790000000000000000027b0000000080200879440804b98d18a41e000000400000000a0022501c070102a6c7e56340064000b4012c41010000001a001a001a0e0e0523287f0000000000000300032d0f105a7d625a695c027b,
  0xba000008000000008d01e80000008d000001e800000000000000000403030202040303050501010101010303030404030300030003000000002d550037003700000000001e001900130010000e0000000000000000027c0000000000000000027c0000000000400020208208100c168804000000000000000000005000010000c4932b08000120006e00484801000000440031003103030532287f0000000000000004012d090637323c375537027c,
  0xbb00000a000000010101e30000008d00000101000000000000000004030302020403030505010101010103030304040102000300010000000032500032003200000000001e001900130010000e0000000000000000027c0000000000000000027d0000000002400020228208100c168804000000000000000010005000010000c4932b2b4001cc00a001134801000000440031003103030532287f000000de00de0300030f0906698764413c55027d,
  0xcd00000000004000000170000e000001700000021500000000000000000505050202050505050501010101010202020202020200020002000000003c55003c004100000000001e001900130010000e0000000000000000027e0000000000000000027e0000000000201c61122240a01c3000010000008000000001c001900000100f81072c430009c400d2012241010000009a009a009a0f0f052350ff000000000000003003030108485a6c815a5b027e,
  0xce0000000000400000021501bc000002150000021500000000000000000505050202050505050501010101010202020202030300030002000000003c55003c004100000000001e001900130010000e0000000000000000027f0000000000000000027f0000000000201c29122200a01c3004010000000000000005c002900000410f81076c03000a2800be012247010000009a009a009a0f0f052350ff000000000000000c030301055a486c5a815b027f,
  0xcf000000000050000000ca0215000000ca0000021500000000000000000505050202050505050501010101010202020202030300030002000000003c55003c004100000000001e001900130010000e000000000000000002800000000000000000028000000000002028a3182600a01c3000010000000000000001c000900000100f84132e1f0007d000c8012243010000009a009a009a0f0f052350ff0000000000000c000303010b815a6c485a5b0280,
  0x8000000000000000000000000000013a000000000000000002020502020505050505010101010100000300000000000000020000000000000000002800000000000a000a0013000a000a00000000000000000281000000000000000002810000000002026011040100b98c5018020000000000000002800050000f004c828fa00340027600960122430203fe0080009e009e0f0f055a7800000000000000000c03030202507d6f46734f0281,
  0x800800000000000000000000000001b3000000000000000002020502020505050505010101010100000300000000000000010000000000000000002800000000000a000a0013000a000a00000000000000000282000000000000000002820000000000436051040100a98c501b020000000000000003200510000f004c8287a04360026200960122410203ff0080009e009e0f0f055a7800000000000000000c0303020c507d6f46734f0282,
  0x4300000002270310000002270000022700000000000000000605050202060505050501010101010102030202020300020002000000003c640046002800000000001e001900130010000e0000000000000000028300000000000000000283000000080100082940888c130d108804000000400000000a100010120a0153c6436e0b400ce4014001544801000000a300a300a30f0f050078ff00000000000003000303090f78965a6478640283,
  0x4208000002260130000002260000022600000000000000000605050202060505050501010101010102030202020300020002000000003c640046002800000000001e001900130010000e00000000000000000284000000000000000002840000000800410869400884030d100b00000000400000000a000110060a015382436e43600d7a012201544401000000a400a400a40f0f050078ff000000000000000c03030c0f64785a7896640284,
  0x59000000000000000002020502020505050505010101010100000300000000000000010000000000000000002800000000000a000a0013000a000a00000000000000000285000000000000000002850000000000007809000300808d500c030000000000000002000210000b2358818770834002a80096012c45020400007d009f009f0f0f055a78000000000000000300030302045073655a7d590285,
  0x4200000001490225000001490000022500000000000000000605050202060505050501010101010102030202020300020002000000003c64003c002800000000001e001900130010000e00000000000000000286000000000000000002860000000800000c69400884020d100860000000400000000a000010020a09538e4f6e03400cb2012c014a47030401002e002e002e0f0f050078ff000000000000010503030e0f5a825f5a827d0286,
  0x4400000038019b000000380000003800000000000000000505050202050505050501010101010102020202030300030002000000003755003c003200000000001e001900130010000e00000000000000000287000000000000000002870000000400300801132220a01c3000990000000000000001c000900000100f8e0b2c030001e5008c012242020403009a009a009a0f0f052350ff00000000000003000303010a5a816c5a485b0287,
  0x1010101010101010101010101010100000000000000000000000000000000000000000000000000000100010001000100010000000000000000000000000000000000000000000000000000000000000000000000000000000000000000000000000000000000000000000000000000000000000000000000000000000000ff0000000000000000000000000000000000000288,
  0x2020202020505050505010101010100000000000000000000000000000000000000000000000000000a000a000a000a000a00000000000000000289000000000000000002890000000000080662340042000c1c0b640000008000000000000410020500018013374b4003390096012c460504050058005800580f0f050078ff0000000000000144030308065f78635f78470289,
  0x10101010101010101010101010101000000000000000000000000000000000000000000000000000001000100010001000100000000000000000000000000000000000000000000000000000000000000000000000000000000000000000000000000000000000000000000000000000000000000000000000000000000001f000000000000000000000000000000000000028a,
  0x10101010101010101010101010101000000000000000000000000000000000000000000000000000001000100010001000100000000000000000000000000000000000000000000000000000000000000000000000000000000000000000000000000000000000000000000000000000000000000000000000000000000001f000000000000000000000000000000000000028b,
  0x10101010101010101010101010101000000000000000000000000000000000000000000000000000001000100010001000100000000000000000000000000000000000000000000000000000000000000000000000000000000000000000000000000000000000000000000000000000000000000000000000000000000001f000000000000000000000000000000000000028c,
  0x10101010101010101010101010101000000000000000000000000000000000000000000000000000001000100010001000100000000000000000000000000000000000000000000000000000000000000000000000000000000000000000000000000000000000000000000000000000000000000000000000000000000001f000000000000000000000000000000000000028d,
  0x10101010101010101010101010101000000000000000000000000000000000000000000000000000001000100010001000100000000000000000000000000000000000000000000000000000000000000000000000000000000000000000000000000000000000000000000000000000000000000000000000000000000001f000000000000000000000000000000000000028e,
  0x10101010101010101010101010101000000000000000000000000000000000000000000000000000001000100010001000100000000000000000000000000000000000000000000000000000000000000000000000000000000000000000000000000000000000000000000000000000000000000000000000000000000001f000000000000000000000000000000000000028f,
  0x10101010101010101010101010101000000000000000000000000000000000000000000000000000001000100010001000100000000000000000000000000000000000000000000000000000000000000000000000000000000000000000000000000000000000000000000000000000000000000000000000000000000001f0000000000000000000000000000000000000290,
  0x10101010101010101010101010101000000000000000000000000000000000000000000000000000001000100010001000100000000000000000000000000000000000000000000000000000000000000000000000000000000000000000000000000000000000000000000000000000000000000000000000000000000001f0000000000000000000000000000000000000291,
  0x10101010101010101010101010101000000000000000000000000000000000000000000000000000001000100010001000100000000000000000000000000000000000000000000000000000000000000000000000000000000000000000000000000000000000000000000000000000000000000000000000000000000001f0000000000000000000000000000000000000292,
  0xa202a1000000a20000002100000000000000000303030202030303050501010101010404040505020200020002000000003255003c002800000000001e001900130010000e00000030000000000293000000000000000002c70000000000602c00000100008cd014110000000000000000000210000b31088183e0800000320028002f45010000002500a70035050500320f7f000000000000004001ff00002420392624260293,
  0x1000000005900a200000059000000a200000000000000000505040202050504050501010101010303030404030200030002000000003264003c003200000000001e001900130010000e00000031000000000293000000000000000002c80000000040622e08000100888cd014930000000000000006000210000b33088183e0833b01a80064009445010000002500a70035050500320f7f0000000000000002027f04004d324e4d38550294,
  0x16000002000000014c00340000014c00000034000000000000000003030202020303020505020201010103030304040302000300020000000028460028002800000000001e001900130010000e00000000000000000295000000000000000002f10000000000200000000008300c101001000000000000000000005000010001c4c3a000400011001e00384001000000b100910091040403320f7f000000000000004001ff020026283e2b322d0295,
  0x17000002000000020001e800000200000001e8000000000000000003030202020303020505020201010102020203030302000300020000000028460028002800000000001e001900130010000e00000000000000000295000000000000000002f20000000000200000000008300c109005000000000000000000005000010001c4c3a0204000a0004600864001000000b100310031040403320f7f00000000000000800278020934385437493e0296,
  0x18000002000000020001e800000200000001e8000000000000000003030202020303020505020201010102020203030302000300020000000028460028002800000000001e001900130010000e00000000000000000295000000000000000002f30000000002200004008108300c109005000000000000000000005000010001c4c3a02b4000f5007800af4001000000b100310031040403320f7f00000000000000c0022d0209454a7e47514e0297,
  0x10101010101010101010101010101000000000000000000000000000000000000000000000000000001000100010001000100000000000000000000000000000000000000000000000000000000000000000000000000000000000000000000000000000000000000000000000000000000000000000000000000000000007f0000000000000000000000000000000000000298,
  0x10101010101010101010101010101000000000000000000000000000000000000000000000000000001000100010001000100000000000000000000000000000000000000000000000000000000000000000000000000000000000000000000000000000000000000000000000000000000000000000000000000000000007f0000000000000000000000000000000000000299,
  0x10101010101010101010101010101000000000000000000000000000000000000000000000000000001000100010001000100000000000000000000000000000000000000000000000000000000000000000000000000000000000000000000000000000000000000000000000000000000000000000000000000000000007f000000000000000000000000000000000000029a,
  0x1010101010101010101010101010100000000000000000000000000000000000000000000000000000100010001000100010000000000000000000000000000000000000000000000000000000000000000000000000000000000000000000000000000000000000000000000000000000000000000000000000000000000e1000000000000000000000000000000000000029b,
  0x1010101010101010101010101010100000000000000000000000000000000000000000000000000000100010001000100010000000000000000000000000000000000000000000000000000000000000000000000000000000000000000000000000000000000000000000000000000000000000000000000000000000000e1000000000000000000000000000000000000029c,
  0x1010101010101010101010101010100000000000000000000000000000000000000000000000000000100010001000100010000000000000000000000000000000000000000000000000000000000000000000000000000000000000000000000000000000000000000000000000000000000000000000000000000000000fe000000000000000000000000000000000000029d,
  0x1010101010101010101010101010100000000000000000000000000000000000000000000000000000100010001000100010000000000000000000000000000000000000000000000000000000000000000000000000000000000000000000000000000000000000000000000000000000000000000000000000000000000fe000000000000000000000000000000000000029e,
  0x1010101010101010101010101010100000000000000000000000000000000000000000000000000000100010001000100010000000000000000000000000000000000000000000000000000000000000000000000000000000000000000000000000000000000000000000000000000000000000000000000000000000000fe000000000000000000000000000000000000029f,
  0x10101010101010101010101010101000000000000000000000000000000000000000000000000000001000100010001000100000000000000000000000000000000000000000000000000000000000000000000000000000000000000000000000000000000000000000000000000000000000000000000000000000000007f00000000000000000000000000000000000002a0,
  0x10101010101010101010101010101000000000000000000000000000000000000000000000000000001000100010001000100000000000000000000000000000000000000000000000000000000000000000000000000000000000000000000000000000000000000000000000000000000000000000000000000000000007f00000000000000000000000000000000000002a1,
  0x80400000010701ea00000107000001ea00000000000000000303030202030303050501010101010303030404030300030003000000002855003c003200000000001e001900130010000e0000006f0000000002a2000000000000000002f00000000000222e20040104a90c5000930000000000000000400298028a010a868360803b0050003c00464801000000710068005908050032197f000000db0000000401dc0101302e2b3e524302a2,
  0x804000000167020e000001670000019000000000000000000404030202040403050501010101010303030304030300030002000000003255003c003200000000001e001900130010000e000000700000000002a2000000000000000002da00000000a0222e21162184a90d7024930000000000000004402298028a010ea687e0833b055000d200ad4801000000710068005908050032197f000000db000000080241100147453a4e7c5f02a3,
  0x10101010101010101010101010101000000000000000000000000000000000000000000000000000001000100010001000100000000000000000000000000000000000000000000000000000000000000000000000000000000000000000000000000000000000000000000000000000000000000000000000000000000007f00000000000000000000000000000000000002a4,
  0x400000001d90071000001d90000000a000000000000000003030302020303030505010101010104040404050301000300020000000028500032002800000000001e001900130010000e000000d00000000002a5000000000000000002dd0000000004280032040201408e1009000000000000000000000011c002008386832e40040023001e00474701000000140097003305050032147f000000000000004001be0d0d3c3f4436303e02a5,
  0x400000001d90073000001d9000001d900000000000000000303030202030303050501010101010202030303030100030002000000003755003c003200000000001e001900130010000e000000d10000000002a5000000000000000002de0000000004280032040201428e10090000000000000000000a1011c002009386a32ec3040055003c00a34102045a009e009700330505003214000000000000000080024b0d0d5153684c304a02a6,
  0xe014c0000000e0000000e00000000000000000202020202020202050501010101010404040405020300020001000000003250003c002800000000001e001900130010000e0000014a0000000002a7000000000000000002e80000000000000440003040000c3000010000008000000002400090220000088283651000001400500041450100000063006300630a0a0032147f000000000000001001b4070825231c64502d02a7,
  0x14c000e0000014c0000000e00000000000000000202020202020202050501010101010303040404030100030001000000001e55003c003200000000001e001900130010000e0000014b0000000002a7000000000000000002e90000000000000440003040000c3000010000008000000002400090220000088283651000002d0050009d450100000063006300630a0a0032147f0000000000000020025a0708312d23966e3b02a8,
  0x190000e000001900000019000000000000000000303030202030303050501010101010303030404030200030003000000003264003c003200000000001e001900130010000e0000014c0000000002a7000000000000000002ea0000000000000440003040020c3000010000008000000002c00090220000088683651300021200aa00fa4502045b00b000b000b00a0a0032147f0000000000000420032d07088c323c8c323c02a9,
  0x20000000000ba00e6000000ba000000e600000000000000000303020202030302050501010101010303030405020200020001000000002855003c003200000000001e001900130010000e000000d40000000002aa000000000000000002f60000000010080052001201004c10090000000000000000000280104000008286a32600000005001400444901000000a50083008306060032147f000000000000000101c81111413f173c344e02aa,
  0x20000000000ba00e6000000ba000000e60000000000000000040302020204030205050101010101020202030302020002000200000000325a003c003700000000001e001900130010000e000000d50000000002aa000000000000000002f70000000010080052001201004e104b0000000000000000000280104080008286a3260300009b005000a24901000000a50083008306060032147f0000000000000002028c111159631d48486502ab,
  0x2000000000247024d000002470000024d000000000000000005050402020505040505010101010102030404050303000300030000000028500032002800000000001e001900130010000e000000d20000000002ac000000000000000002e60000000014000002000200000c12091400000000000000000080100000008286a3aa000000230028004448010000005400af00af06060032147f000000000000001001c81111393b3142303e02ac,
  0x2000000000241024d000002410000024d00000000000000000505040202050504050501010101010203030303020200020002000000003255003c003200000000001e001900130010000e000000d30000000002ac000000000000000002e70000000014000002000200000c124b1400000000000000000080100080008286a3aa03000032005000a848010000005400af00af06060032147f0000000000000020028c11114b554856505202ad,
  0x6c000084000000005f00cf0000005f000001ec00000000000000000404030202040403050501010101010303040404030300030002000000003755003c002d00000000001e001900130010000e000001220000000002ae000000000000000002d600000004000e0010040200a42c1009040000000000000000000090602a00808683e6000000230028003a4101000000970015007e0c020032147f000000000000000401be0d102e252d35363502ae,
  0x6d00008400000001ec00cf000001ec000001ec00000000000000000505040202050504050501010101010202030303030200030002000000003c55003c003200000000001e001900130010000e000001230000000002ae000000000000000002d700000004800e0010040200a42e3009040000000000000002000090602a00808687e6030001d6009600a94101000000970015007e0c020032147f000000000000000802500d104b4449585c5602af,
  0x216018d00000216000000bd00000000000000000303020202030302050501010101010303030405020200020003000000002855003c003200000000001e001900130010000e000000ea0000000002b0000000000000000002eb0000000400107800120040280c5004710000000000000000400a10020e610aa38be9800001360032003d45010000007c006100b509090032147f000000000000000401780a0538273243342a02b0,
  0x10000000021601d400000216000001d4000000000000000004040302020404030505020101010104020303030302000300020000000032550032002d00000000001e001900130010000e000000eb0000000002b0000000000000000002ec00000004001078091201e0a80c5004f10000000000000002400a10020e612ab38be9830003c0008200af45010000007c006100b509090032147f0000000000000008022d0a0556364473694802b1,
  0xc2000040040000019601560000019600000156000000000000000005040402020504040505010101010104040405050202000200020000000037550037003700000000001e001900130010000e000000000000000002b2000000000000000002c5000000000c104200404000028d5101180000000000000000000014000010208a8b20000000490032004045010000005b008f00260e020032147f000000000000040001e10a033c3c1e3c3c3202b2,
  0xc3000040040000019601560000019600000156000000000000000005040402020504040505010101010104040405050202000200020000000037550037003700000000001e001900130010000e000000000000000002b2000000000000000002c6000000000c104201404000028d5103180000004000000000000014000010208a8b200300032f00b400ad45010000005b008f00260e020032147f000000000000080002370f037b612c5a4b4102b3,
  0xc40000000500000160014a0000014a00000160000000000000000004030302020403030505010101010103030304040301000100030000000032500032003200000000001e001900130010000e000000000000000002b4000000000000000002f40000000000104040410020008c510031000000000000000000001400011022828b6000000053003200424101000000b200b200b2090205320f7f000000000000010001e10a0a3f3a2c3e353202b4,
  0xc50000000500000160014a0000014a00000160000000000000000004030302020403030505010101010103030304040301000100030000000032500032003200000000001e001900130010000e000000000000000002b4000000000000000002f50000000400104041450020028c510031000000000000000000001400011022828b6003000161008200644101000000b200b200b2090205320f7f000000000000020001370a0a59783b58494702b5,
  0x40080000023a010c0000023a00000056000000000000000003030202020303020505010101010103040404050302000300020000000028550032002800000000001e001900130010000e0000013e0000000002b6000000000000000002db0000000000492000040000008c101310000000000000000004071800010101838362c000003c0032003a42010000005e000800570e010032147f000000000000004001be000c2b3d4621262c02b6,
  0x40080000023a010c0000023a0000023a00000000000000000403030202040303050501010101010203030304030300030002000000002855003c002800000000001e001900130010000e0000013f0000000002b6000000000000000002dc0000000000492001440004008c101390000000000000000a24071800010141878362cb2b00d2006400a842010000005e000800570e010032147f0000000000000140024b000c5e6d6d34373e02b7,
  0x5300000000d0000000009d00270000009d0000002700000000000000000403030202040303050501010101010303030404010100010001000000002d550037003700000000001e001900130010000e000000000000000002b8000000000000000002e10000000204001c284428c4818d10040200000040000000040002101c04410885a760800001040050004845010000000500ad00ad0e0100321e1f0000000000000004012d0f052d2d304d593a02b8,
  0x5400000000d0000000009d00270000009d0000002700000000000000000403030202040303050501010101010303030404010100010001000000002d550037003700000000001e001900130010000e000000000000000002b8000000000000000002e20000000244001c284428c4818d100402000000400000000e0002101c04410885a76083000a8c00fa00b640010000004500ad00ad0e0100321e1f0000000000000008022d0f053b454777795202b9,
  0x550000000010000000003b00560000003b0000005600000000000000000605050202060505050501010101010505050606010200010002000000004664003c003c00000000001e001900130010000e000000000000000002ba000000000000000002e30000000000001c6804024400cd1001620000000000000000000210010061408b8b6e410000fc0082004841010000007500ae00ae010100321e1f0000000000000001012d0e053f432e323b4d02ba,
  0x560000000010000000003b00560000003b0000005600000000000000000605050202060505050501010101010505050000010200010002000000004664003c003c00000000001e00190013000a000a000000000000000002ba000000000000000002e40000000000001c6804024400cd100f620000000000000000000210010069408b8b6e430008ca010e006841010000007500ae00ae010100321e1f0000000000000002012d0e055c633a484d7b02bb],
  [0x52000000020000000001300249000001300000024900000000000000000505040202050504050501010101010203030303030300030002000000003255003c003200000000001e001900130010000e000000cc000000000085000000000000000002ff000000001424000000020502ae1020020000000000000000128090000000c386a32e870400eb006400b84901000000b60038003805050032231f0000000000000800022d1111826e3c41415f02bc,
  0x24000000230000e0000023000000230000000000000000003030302020303030505010101010103030303040203000200020000000032550028002d00000000001e001900130010000e000001400000000002bd000000000000000002f90000000880282c25122100a06c30108100000000000000004000d8008f110f86c360826b00d7005000af4301000000680054000708040032147f000000dd00000008026402013f4a764b5c4e02bd,
  0x6700000008000001b3023a000001b30000023a000000000000000003020202020302020505020201010102020203030103000100030000000028460028002800000000001e001900130010000e000000000000000002be000000000000000002e50000000014492000000000008c10030000000000000000002405900009000286a3a0c220001600140097420100000039003500a706050032147f000000000000008002b4110c435165393a4302be,
  0x800000000210010000024900710000024900000071000000000000000005040402020504040505010101010104040405050201000200010000000037550037003700000000001e001900130010000e000000000000000002bf000000000000000002fe0000000810081808801241000c1008000000000000000004000010c02003008d236e00000039001e0064470100000005001d001d0a06053219ff0000000000000410013c110596323296323202bf,
  0x3c000008000000014a01960000014a0000016000000000000000000303030202030303050501010101010303040404030300030002000000003c5a003c003200000000001e001900130010000e000001850000000002c0000000000000000002fb0000000000004000400020008d5001020000004000000000000010000020008683600000001c001e003c4601000000b7005d009d0e0e0523287f0000012700000400012d0f0f4b372823322d02c0,
  0x3d000008000000019601eb000001960000019600000000000000000303030202030303050501010101010303030304030300030002000000003c5a003c003200000000001e001900130010000e000001860000000002c0000000000000000002fc0000000000004000400020008d500162000000400000000000001000002000868360000000af0050009e4601000000b7005d009d0e0e0523287f0000012700000800022d0f0f71533c354b4402c1,
  0x3e00000800000001b6014a000001b60000019100000000000000000505040202050504050501010101010202020203030300030003000000003c5a003c004100000000001e001900130010000e000001870000000002c0000000000000000002fd0000000800004101400020808d50877e000000400000000e000210000420408e8360032b05e100c8012c4601000000b7005d009d0e0e0523287f0000000000000c00032d0f0f966e5046645a02c2,
  0x1c0000000000000241010300000103000002410000000000000000050404020205040405050101010101040404050502020002000200000000375f003c003c00000000001e001900130010000e000000000000000002c3000000000000000002f80000000014060040000240000e9008000000008000000000028011000000108683ae4300001e001400a54701000000aa009e009e0a0a0432147f0000000000000010024b110857504b5b503902c3,
  0x21000000002810000000ae0049000000ae000000ae00000000000000000303030202030303050501010101010304040405020300020002000000002d55003c003200000000001e001900130010000e000001520000000002c4000000000000000002be00000000080a20020e0001420c100800000000000000000000423042000010c493ec8c0000460028003e45010000008b0077001e0b070032147f000000000000000401780b073c322630462b02c4,
  0x22000000002810000001a50113000001a5000001a50000000000000000040404020204040405050101010101020203030303010003000200000000325f003c003200000000001e001900130010000e000001530000000002c4000000000000000002bf00000000080a20831e0201420c100c00000000000000000200423042800010c493ec8f0002c6009600a645010000008b0077001e0b070032147f0000000000000008023c0b075241384c6e5502c5,
  0x2810000001360237000001360000023700000000000000000303030202030303050501010101010404040404030200030001000000003c64003c003200000000001e001900130010000e000000bf0000000002c6000000000000000002df00000000000a20020c1001420c508804000000000000000010003040000410c497ea08000032002800434504045c000f007700350b0b0032147f000000000000001001780b07372c3346423102c6,
  0x2810000001360237000001360000023700000000000000000303030202030303050501010101010404040404030200030002000000003c64003c003200000000001e001900130010000e000000c00000000002c6000000000000000002e000000000000a21130c1001420c508804000000000000000210403040000410c497ea0b00007d005a00ad4504045f000f007700350b0b0032147f0000000000000020023c0b074b3a547a5a4102c7,
  0x8e000000000000000000c401a7000000c4000001a700000000000000000303030202030303050501010101010404040405020300020002000000003255003c002800000000001e001900130010000e000001660000000002c8000000000000000002ed0000000000000840001040010c1000700000000000000000000010090009008a8b68000003e30064003d410100000005007300140a010032147f000000000000001001be0e0e23201c55453702c8,
  0x8f000000000000000001a70022000001a70000002200000000000000000505040202050504050501010101010202030303030200030002000000003255003c003200000000001e001900130010000e000001670000000002c8000000000000000002ef0000000840008c40001040810c10047a0000000000000004000210090009008a8b68030013ba00c800b4410100000005007300140a010032147f000000000000002002370e0e2e2c1cb8755f02c9,
  0xb500000000020000000193016e000001930000016e00000000000000000303030202030303050501010101010304040405020100020001000000003c55003c003200000000001e001900130010000e000000b00000000002ca000000000000000002cc00000000024000005400043a8d14180000000040000000008000500201000984c3a1084000500032003146010000008c009700770e040032147f000000000000004001be0f02282d37231e2802ca,
  0xb60000000002000000024a021e0000024a0000019600000000000000000303020202030302050501010101010202020303030300030002000000003255003c003200000000001e001900130010000e000000b10000000002ca000000000000000002fa00000000024000015408843a8d14180400000040000000008000500201000984c3a10b400352009600bb46010000008c009700770e040032147f0000000000000080022d0f0250617b50465502cb,
  0x200010000000000000000000000000249000000000000000002020502020505050505010101010100000300000000000000030000000000000000002800000000000a000a0013000a000a000000000000000002cc000000000000000003000000000014002061002204001f100b020000000000000001028010800000018e036643000866012c01544102046200bb00bb00bb0f0f050078ff0000000000000003032d11116283635f837e02cc,
  0x8200000000000000000000000000022b000000000000000002020502020505050505010101010100000300000000000000020000000000000000002800000000000a000a0013000a000a000000000000000002cd000000000000000003010000000002020021040084320c1008020000000000000000806050020300018643e0034007ee024401544001000000ba00ba00ba0f0f050078ff0000000000000003032d02106283635f837e02cd,
  0x49000000000000000000000000000268000000000000000002020502020505050505010101010100000300000000000000030000000000000000002800000000000a000a0013000a000a000000000000000002ce000000000000000003020000000040006829400804818d300402000000400000000c0002900002000985036883000bea01f4012c4305046300bc00bc00bc0f0f050078ff00000000000000030303040f5f515f79646c02ce,
  0x210010000000000000000000000000000000000000000000002020202020505050505010101010100000000000000000000000000000000000000000000000000000a000a000a000a000a000000000000000002cf0000000000000000030400000008140c1808801241006e1248000000000000000000108010c02003828d236e030000580046012c49010000001d001d001d0f0f053219ff00000000000008100303110596643296643202cf,
  0x1010101010101010101010101010100000000000000000000000000000000000000000000000000000100010001000100010000000000000000000000000000000000000000000000000000000000000000000000000000000000000000000000000000000000000000000000000000000000000000000000000000000000ff00000000000000000000000000000000000002d0,
  0x1000000000000000000000000000000000000000000000002020202020505050505010101010100000000000000000000000000000000000000000000000000000a000a000a000a000a000000000000000002d1000000000000000003050000000c0110c849009008900c50a40e000000000000000402021004082048c707702b00079e00aa012c45010000000b000b000b0f0f056478ff000000000000030003030a095a8246786e5002d1,
  0x2100000004b01360000004b0000013600000000000000000303030202030303050502010101010603040404020300020003000000002850003c003200000000001e001900130010000e000000000000000002d2000000000000000003490000000000202016080400002c10000100000001000000004000100200000184d32a0800000f001e00404501000000cb00410041040403320f1f0000000000000001012d020b32322a37374402d2,
  0x2100000004b01360000004b0000013600000000000000000404030202040403050502010101010503030303020300020003000000003255003c003200000000001e001900130010000e000000000000000002d20000000000000000034a0000000000202016080400002c10000100000001000000004000100200000184d32a080000a0004600934501000000cb00410041040403320f1f0000000000000002022d020b4646344b4b4e02d3,
  0x2a100000015c02960000015c0000029600000000000000000504040202050404050502010101010402030303030300030003000000003c5a003c003c00000000001e001900130010000e000000000000000002d202b7029600000000034b0000000002202096080400022c1000010000000900000000c040782201001184d32a1b00016e00a001094501000000cb00410041040403320f1f000000000000000c032d070b6464464b6b4e02d4,
  0x2c01a80000002c0000003400000000000000000403030202040303050501010101010303040404030300030002000000002850003c003200000000001e001900130010000e000000000000000002d50000000000000000034c0000000000200010008108310d148007000000020000000000005012010004c487202004002b0028004040010000001600420042050503320f1f0000000000000040012d0909283c4628412d02d5,
  0x3500cf00000035000001a800000000000000000403030202040303050501010101010203030304030200030003000000003c5a003c003200000000001e001900130010000e000000000000000002d50000000000000000034d0000000000200010008108310d148007000000020000000000005012010004c48720200400fa0046009340010000001600420042050503320f1f0000000000000080022d090932505a32554102d6,
  0x810200000297015300000297000002970000000000000000050504020205050405050101010101010203030303020003000200000000325a003c003c00000000001e001900130010000e000000000000000002d502b8029700000000034e00000000a120041104a10ab10d3484870000001200000006002258128d000cc48720232f033e00b4010940010000001600420042050503320f1f000000000000000c032d10095a503c5a735f02d7,
  0x2400000037002f000000370000003700000000000000000303030202030303050501010101010304040404030200030002000000003255003c003200000000001e001900130010000e000000000000000002d80000000000000000034f000000000430000000000408cc1300780000000400000000028050800080229aab200000004b002800404101000000cc00430043050203320f1f0000000000000100012d0a0a38422836363202d8,
  0x240000003d002f0000003d0000003d00000000000000000403030202040303050501010101010203030304020300020002000000003c5a003c003200000000001e001900130010000e000000000000000002d800000000000000000350000000000430000000000408cc1300780000000400000000028050800080229aab20000000af003c00934101000000cc00430043050203320f1f0000000000000200022d0a0a515b3245453c02d9,
  0x20024000002980249000002980000029800000000000000000505040202050504050501010101010102030303020300020002000000003c5a003c003c00000000001e001900130010000e000000000000000002d802b9029800000000035100000004143400020002040acc1308780000002400000000028050800080629aab26030001b800b401094101000000cc00430043050203320f1f0000000000000300032d110a747e3c4a4a5002da,
  0x10101010101010101010101010101000000000000000000000000000000000000000000000000000001000100010001000100000000000000000000000000000000000000000000000000000000000000000000000000000000000000000000000000000000000000000000000000000000000000000000000000000000007f00000000000000000000000000000000000002db,
  0x10101010101010101010101010101000000000000000000000000000000000000000000000000000001000100010001000100000000000000000000000000000000000000000000000000000000000000000000000000000000000000000000000000000000000000000000000000000000000000000000000000000000007f00000000000000000000000000000000000002dc,
  0x10101010101010101010101010101000000000000000000000000000000000000000000000000000001000100010001000100000000000000000000000000000000000000000000000000000000000000000000000000000000000000000000000000000000000000000000000000000000000000000000000000000000007f00000000000000000000000000000000000002dd,
  0x10101010101010101010101010101000000000000000000000000000000000000000000000000000001000100010001000100000000000000000000000000000000000000000000000000000000000000000000000000000000000000000000000000000000000000000000000000000000000000000000000000000000007f00000000000000000000000000000000000002de,
  0x10101010101010101010101010101000000000000000000000000000000000000000000000000000001000100010001000100000000000000000000000000000000000000000000000000000000000000000000000000000000000000000000000000000000000000000000000000000000000000000000000000000000007f00000000000000000000000000000000000002df,
  0x808000000d1000b000000d10000000b00000000000000000303030202030303050501010101010404040405030300030002000000003250003c003c00000000001e001900130010000e000000100000000002e0000000000000000003440000000000400000120000010c100100000000000000000000055000002000828323c000002c0028003c47010000004400440044030300320f7f000000000000000401ff06062d372e2d3e2f02e0,
  0x808000001b3010c000001b30000010c00000000000000000606040202060604050501010101010404040404020200020001000000002855003c003200000000001e001900130010000e000000110000000002e0000000000000000003450000000000410000120040010c100100000000000000000020055000002000828323c00000690032008c4301000000d900d900d9030300320f7f000002220000002002780c064b37245f523902e1,
  0xa0800000055010c000000550000005500000000000000000504040202050404050501010101010203030303030300030002000000003255003c002800000000001e001900130010000e000000120000000002e0000000000000000003460000000000410042320040010c1013000000000000000000a0055000002000828323cb4001c2009600fa41010000001a001a001a030300320f7f0000000000000300032d0c064b912b5a464d02e2,
  0x10101010101010101010101010101000000000000000000000000000000000000000000000000000001000100010001000100000000000000000000000000000000000000000000000000000000000000000000000000000000000000000000000000000000000000000000000000000000000000000000000000000000007f00000000000000000000000000000000000002e3,
  0x10101010101010101010101010101000000000000000000000000000000000000000000000000000001000100010001000100000000000000000000000000000000000000000000000000000000000000000000000000000000000000000000000000000000000000000000000000000000000000000000000000000000007f00000000000000000000000000000000000002e4,
  0x1010101010101010101010101010100000000000000000000000000000000000000000000000000000100010001000100010000000000000000000000000000000000000000000000000000000000000000000000000000000000000000000000000000000000000000000000000000000000000000000000000000000000bf00000000000000000000000000000000000002e5,
  0x200000001e3025d000001e3000001e300000000000000000303030202030303050501010101010404040405030300030001000000003255003c002800000000001e001900130010000e000000bb0000000002e6000000000000000003420000000014080002200201402c14080000000000000000000080518041009384a3ae00000002000a003d4201000000af0013007606030032147f0000005e0000004001be1106283754282d2802e6,
  0x200000002a401e3000002a4000002a400000000000000000303030202030303050502010101010402020303030300030002000000002d55003c003200000000001e001900130010000e000000bc0000000002e6000000000000000003430000000114080002200201402c14080000000000000000000080518041009384a3ae0f000005001400a24201000000af0013007606030032147f0000005e00000080024b1106465f7c3c373c02e7,
  0x9d00000000000001bc009d000001bc0000009d00000000000000000403030202040303050501010101010303030404010100010001000000002d550037003700000000001e001900130010000e000000000000000002e80000000000000000033c0000000004001c28000044218c1000010000000000000004002010140001008087600000005c003200384502046b005000480033050500320f7f000000000000000401be0505281e3c28412d02e8,
  0x9e00000000000001bc009d000001bc0000009d00000000000000000403030202040303050501010101010303030404030100030001000000002d5500370037000000000019001900130010000e000000000000000002e802d701bc00000000033d0000000204801c28002144218c101001000000000000000400301014044109818760020000fa005000aa4503046c005000920033050500320f7f0000000000000008025a050541377041734b02e9,
  0x6e0000400400000039018800000039000002cb00000000000000000504030202050403050502010101010603030505020100020002000000002850003c002800000000001e001900130010000e0000009b0000000002ea000000000000000003340000000400100000000020088c11043800000000000000000002100001a022ba8320000000030014003d4102046e00d000d000d00c0c04320f7f0000000000000001023c0a0a19192814142d02ea,
  0x7f000000000000002a018e0000002a0000002800000000000000000303030202030303050501010101010404040404030300030002000000003255003c003200000000001e001900130010000e000001330000000002eb000000000000000003210000000408104200024060000c50007800000000000000000000140002a0008a8b28008000500028003d410100000090000700c402020032147f000000f50000001001be0a03342b2d3e353202eb,
  0x8000000000000002c6005c000002c6000002c60000000000000000040403020204040305050101010101030303040403030003000200000000415a003c003200000000001e001900130010000e000001340000000002eb000000000000000003220000000408104200024060000c50007800000000000000000000360002a0008a8b2a00800091004600ad410100000090000700c402020032147f000000f500000020024b0a038e3523983f3202ec,
  0x29b00f90000029b0000001700000000000000000303030202030303050501010101010404040404030300030002000000003255003c002d00000000001e001900130010000e000000540000000002ed000000000000000003470000000040009408002040800c1004820000000000000004000218000203008183600002044c0064004d45010000002700c0001405050032147f0000010d0000000401be0404372d2d46644602ed,
  0x800000000059004400000059000000590000000000000000050404020205040405050101010101030303040403020003000200000000375a003c003200000000001e001900130010000e000000550000000002ed000000000000000003480000000840009409002040800c100482000000000000000400021800022304818760030223f000fa00af45010000002700c0001405050032147f0000010d00000008023c0404553723647d6402ee,
  0x5b000000000800000002a7002c000002a70000002c00000000000000000303030202030303050501010101010404040404030300030002000000003255003c002800000000001e001900130010000e000000d60000000002ef000000000000000003520000000400100000320040010c150070000000000000000000001180000000829b2000000028001e003643010000000b00c700c7030200320f7f000000f30000040001c8060a48281b34282602ef,
  0x5c000000000800000002c602a7000002c6000002c60000000000000000050504020205050405050101010101020303040403030003000200000000375a003c003200000000001e001900130010000e000000d70000000002ef000000000000000003530000000400100000320040010c150078000000000000000000001180000020829b2c0000033400b4009f43010000000b00c700c7030200320f7f000000f3000008000264060a84322a5c464402f0,
  0x11000000100000015c004b0000015c0000004b00000000000000000403030202040303050501010101010303030404030100030001000000002d550037003700000000001e001900130010000e000000000000000002f10000000000000000036400000000000020821a0400000c1400010000000000000000400010000a04408493280c00000f001e003249010000007e0066006607070032147f000000ef0000000401be0b0b23322323372802f1,
  0x12000000100000015c023c0000015c0000023c00000000000000000403030202040303050501010101010303030404030100030001000000002d550037003700000000001e001900130010000e000000000000000002f10000000000000000036500000000000020821a0400800c140001000000000000000041001a200a04488493281f0000b9005a00a849010000007e0066006607070032147f000000ef00000008024b0b0b5a502d5a694602f2,
  0x29c004f0000029c0000004f00000000000000000303030202030303050501010101010303040404030300030002000000003255003c003200000000001e001900130010000e000001540000000002f3000000000000000003230000000110002002080000000c52000000000000000000000080118000000084932a4800000f0014003946010000002c001b002307070032147f000000570056040001be110b4b410f37232802f3,
  0x29c00930000029c000000930000000000000000040303020204030305050101010101030303040403030003000200000000325a003c002800000000001e001900130010000e000001550000000002f3000000000000000003240000000110002002080000000c52000000000000000000000080118080004086932a4b0000730064008e46010000002c001b002307070032147f0000005700560800024b110b645a1e502d3c02f4,
  0x9f00004800000000350131000001310000008b00000000000000000303030202030303050501010101010404040405030300030003000000002855003c002d00000000001e001900130010000e000000f40000000002f5000000000000000003250000000008024210420088308c5480040000000000000000000014020a0003e083a040000030003c004044010000000c00d400d40e010032141f000000e4000000400178090328474d282c3002f5,
  0xa00000488000000035005c00000035000000350000000000000000030303020203030305050101010101020203030303030003000200000000375a003c002800000000001e001900130010000e000000f50000000002f500000000000000000326000000000802421042888830cc5480040000000000000008000056020a0083e083a0400000de007800a844010000000c00d400d40e01003214fe000000e400000080022d09033c6f753c404402f6,
  0x40000001670046000001670000004600000000000000000303030202030303050501010101010404040404030300030002000000003255003c003200000000001e001900130010000e0000005e0000000002f7000000000000000003540000000000200421000100a00c1004010000000000000006000218000a010880a3600033004400320044490100000038006700da050500320f7f0000000000000004018c0100322d32324b4602f7,
  0x40000001670014000001670000001400000000000000000403030202040303050501010101010303030404030300030002000000004164003c004100000000001e001900130010000e0000005f0000000002f7000000000000000003550000000860200421002180a00c3004830000000000000006000218028a010c80a3600333054600d200af49010000007f006700da050500320f7f0000000000000008024601003c373c507d7802f8,
  0x1000000159024d00000159000000e500000000000000000303020202030302050501010101010304040405030300030002000000003255003c002800000000001e001900130010000e000000340000000002f90000000000000000032c0000000014002022080000000c10000000000000000000000080100000100284b32e0c000020001e002a4601000000af000c00660707033214fe000003740000000101eb0b0b261e20261e2a02f9,
  0x3000000159024d00000159000001590000000000000000030303020203030305050101010101030303040403020003000300000000325a003c002800000000001e001900130010000e000000350000000002f90000000000000000032d00000000140020a2080000000c1000000000000000000000008018000a100284b32e0c000052004600664601000000af000c00660707033214fe000003740000008002780b0b30283e30283402fa,
  0x30000001b602b0000001b6000002b000000000000000000504040202050404050501010101010202030303030300030002000000003c5a003c002800000000001e001900130010000e000000360000000002f90000000000000000032e00000000140021a2080000200c1000800000000000000000008058000b100284b32e1f0200d6007800ff4601000000af00d600660707033214fe000000000374000c032d0b0b62324862784802fb,
  0x4f0000001000000241023c0000023c00000241000000000000000005040402020504040505010101010104040405050301000100030000000037550037003700000000001e001900130010000e000000000000000002fc0000000000000000035f00000001140c2002080200604c12000000000000000000000180504009040284b3aa0d000003000a00aa43010000001e00cd00a60707043214bf0000037300000800023c11116e52645a343302fc,
  0x59000004010000005e015b0000005e0000005e000000000000000003030302020303030505010101010103030303040302000300020000000037500032003200000000001e001900130010000e000001560000000002fd0000000000000000032a00000000002e0033000200664e100f000000000000000002080211c00a001886836e030302f8009600ac4801000000b4008c002705050532147f0000000000000800022d0d006e5a3c503c5a02fd,
  0x5a00000040000000740153000000740000015300000000000000000303030202030303050501010101010303030404020200020001000000003255003c002800000000001e001900130010000e000001570000000002fe0000000000000000032f0000000000202603083100aa8c30240000000000000000020006d8008f010ca687e00303033c00c800ac48010000008000de00de05050532147f0000000000000008022d01013c28505a786402fe,
  0x7c000008000000020a001c0000020a0000020a00000000000000000202020202020202050501010101010404050505030200030002000000004664003c004600000000001e001900130010000e000000e80000000002ff000000000000000003620000000000100000200000200c9500100000000000000000000010000420018a8321000000780032002e4701000000c100c100c109030032147f0000000000000040015a0a061e145028231902ff,
  0x7d00000800000002c6000e000002c6000002c600000000000000000505040202050504050501010101010203040404030300030002000000004164003c003c00000000001e001900130010000e000000e90000000002ff000000000000000003630000000480904401362160200cd500710000000000000000402814020e21298a8b610380043800c800ba4701000000c200c200c209030032147f0000000000000020022d0a065a3c288c7d4b0300,
  0x8500002100000000ca00c9000000ca0000020b0000000000000000050404020205040405050101010101040404050503010003000100000000375f003c003c00000000001e001900130010000e0000000000000000030100000000000000000336000000000000180a000041420c520c0000000000000000000002100000a300819360000002bc0032004045010000000800c300c30b0b00320f7f000000f700001010018c04072d460f5037370301,
  0x8600002101000000ca00c9000000ca0000020b0000000000000000050404020205040405050101010101040404050503010003000100000000375f003c003c00000000001e001900130010000e0000000000000000030100000000000000000337000000000000180a000041420c520c0000000000000000000002100008a300819360020009c4008200a845010000000800c300c30b0b00320f7f000000f700001020023c04074b64236e4b550302,
  0xae005c000000ae00000044000000000000000006050502020605050505010101010102040404050202000200020000000041640050003200000000001e001900130010000e0000009c000000000303000000000000000003350000000008000000000000202c1000000000000000000000000000000000020a822f0000000c001e009044010000006d00d700d7020204320f7f0000000000000800023c0a0a821e05823c370303,
  0x10000013200a1000001320000013200000000000000000404040202040404050501010101010404040404030300030002000000003755003c002d00000000001e001900130010000e0000017d0000000003040000000000000000035d00000000002004001000c0000c1800010000000000000000800010020300118f0f60430004b500be006b470100000004000400040f0f050078ff0000000000000002010300005f5f3b5f5f5f0304,
  0x1000002ce0132000002ce000002ce00000000000000000505040202050504050501010101010303030303020300020002000000003250003c002800000000001e001900130010000e0000017e0000000003040000000000000000035e00000002002004601000c4130d380135000000c1000000008020101e0300118f4f70430003ed00e6011d4712046f00e100e100e10f0f050078ff0000000000000003030300005f5f5f5f5f5f0305,
  0x1010101010101010101010101010100000000000000000000000000000000000000000000000000000100010001000100010000000000000000000000000000000000000000000000000000000000000000000000000000000000000000000000000000000000000000000000000000000000000000000000000000000000ff0000000000000000000000000000000000000306,
  0x10101010101010101010101010101000000000000000000000000000000000000000000000000000001000100010001000100000000000000000000000000000000000000000000000000000000000000000000000000000000000000000000000000000000000000000000000000000000000000000000000000000000007f0000000000000000000000000000000000000307,
  0xc102000003080035000003080000003500000000000000000505040202050504050501010101010203030303030200030002000000003264003c003c00000000001e001900130010000e0000015b000000000308000000000000000003560000000801208c414001cc388d1084060000004000000006000214000a0104c483202b03084800c800aa40010000004b004b004b0e010032147f000000f90000002002460f09555b24874e3c0308,
  0x10008000002cc01b3000002cc000002cc0000000000000000040404020204040405050101010101030303030303030003000200000000325a003c003200000000001e001900130010000e0000015c0000000003090000000000000000035a000000000061242002100000cc3013000000008000000000240510000f10038083a443800021001e0098470100000005001f00a0060500320a7f000003710000000802b4080c4928603f62410309,
  0x2e0000000000020000024701a500000247000001a500000000000000000303020202030302050501010101010304040404030300030002000000002d500032002800000000001e001900130010000e0000012d00000000030a02d602470000000003330000000014200000140100620c140b01000000000000000000c031428a0000e0b3ab43000007001400a74202048d00d100d100d10b0b0032147f0000009600000800022d1107693260505a37030a,
  0x10101010101010101010101010101000000000000000000000000000000000000000000000000000001000100010001000100000000000000000000000000000000000000000000000000000000000000000000000000000000000000000000000000000000000000000000000000000000000000000000000000000000007f000000000000000000000000000000000000030b,
  0xc000000001960089000001960000008900000000000000000504040202050404050501010101010202030303030300030002000000003764003c002d00000000001e001900130010000e0000015a00000000030c000000000000000003580000000006202003400a849a0d12877c000000400000000c0022100208000386cb6a4b40073a012c00aa48010000000d009d00c90e010032147f0000009c0000020002460f005b8724553c4e030c,
  0xa2000000012010000002a5004a000002a5000002a50000000000000000050504020205050405050101010101020303030303030003000200000000325a003c003200000000001e001900130010000e0000016800000000030d000000000000000003590000000c0008e542001060020c10041900000000000000020042300206800a9613e01b000834018600b54301000000c800c800c80a0a003219ff000000000000000802190b075a5628648346030d,
  0xa500004000000001510238000001510000023800000000000000000303030202030303050501010101010404040404030300030001000000003255003c003200000000001e001900130010000e0000018800000000030e0000000000000000033000000000002004015009c0288d3004810000004000000000400210020a010881876900000129003c003c47010000008e002b00ab0e0e0532287f0000014600000010012d0f0f2d2d2d41372d030e,
  0xa60000404000000151015d000001510000015d00000000000000000303030202030303050501010101010303030303030300030002000000003255003c003200000000001e001900130010000e0000018900000000030e0000000000000000033100000000002004015029c0288d3004810000004000000002400210028a0108818769000301d60078009347010000008e002b00ab0e0e0532287f0000014600000020022d010f4641415a4b37030f,
  0xa700004040000002b3014e000002b3000002b300000000000000000404040202040404050501010101010202020303030300030002000000002d50003c003200000000001e001900130010000e0000018a00000000030e02d802b300000000033200000008002014415329c4a88d300485000000400000000e400210028a010c818769033b030e00a0012c47010000008e002b00ab0e0e0532287f0000000001460030032d010f6964557d6e4b0310,
  0x1b3000000000000000002020502020505050505010101010100000300000000000000010000000000000000002800000000000a000a0013000a000a0000000000000000031102ba02cd00000000033e0000000010652404000244200c1013000000000000000000640550001500018243af436000cd00b4011d42010000008c00e200e20f0f05320fff00000000000000c00303110c4b5f825573460311,
  0x1d9000000000000000002020502020505050505010101010100000300000000000000030000000000000000002800000000000a000a0013000a000a0000000000000000031202ba02cd00000000033f00000000140c2003000241260e100b000000000000000000088011a07800008423ae030000ba0078011d49010000008c00e300e30f0f05320fff00000000000003000303110d73825f4b55460312,
  0x214000000000000000002020502020505050505010101010100000300000000000000030000000000000000002800000000000a000a0013000a000a0000000000000000031302ba02cd0000000003400000000070242823082340a01c1000010000000000000003412010003a050c84176e0b0101c700be011d40010000008c00e500e50f0f05320fff000000000000000c0303110b5f554b7382460313,
  0x39000000000000000002020502020505050505010101010100000300000000000000010000000000000000002800000000000a000a0013000a000a0000000000000000031402ba02cd0000000003410000000014142000000260620c110078000000000000000102801180288020920b2e031000d40082011d46010000008c00e400e40f0f05320fff0000000000000c000303110a825f55734b460314,
  0x640096000000640000006400000000000000000101010202010101050501010101010a0a0a0a0a010200010001000000002364003c001400000000001e001900130010000e000000000000000003150000000000000000036700000000000000000000000000000000000000000000000000000000000000000000000000010014002841010000006d006d006d0f0f050078ff0000000000000001012d0d0d1f1d251f1d2b0315,
  0x640142000000640000006400000000000000000404040202040404050501010101010a0a0a0a0a010100010001000000002364003c001e00000000001e001900130010000e0000000000000000031500000000000000000368000000000000000000001000000000000000000000000000000000000000000000000000270f000a008c410100000005000500050f0f050078ff0000000000000410022d0d0d831d25831d2b0316,
  0x11400000002c901ac000002c9000002c900000000000000000605050202060505050502010101010202030202030300030002000000004164003c002800000000001e001900130010000e0000000000000000031502d402c90000000003690000000201608c6100b254858f109f0400000080000000001022104000010384076e6b0008fc015401544801000000e600e600e60f0f050078ff000000000000000c032d080d5971616b89890317,
  0x3600000002ca005e000002ca000002ca00000000000000000605050202060505050502010101010202030202030300030002000000004164003c002800000000001e001900130010000e0000000000000000031502d502ca00000000036a0000000010200001000210560e101b600000000000000000804071e2000003c40f2e4b4004b0019001544601000000e700e700e70f0f050078ff0000000000000300032d070d6b89615971890318,
  0x10800000000000000000000000000198000000000000000002020502020505050505010101010100000300000000000000030000000000000000002800000000000a000a0013000a000a000000000000000003190000000000000000036b00000000180a7620824000000e500b020000000000000002000036c000010081036a4000022b0078011d4801000000e000e000e00f0f050078ff0000000000000c00032d0305837f672f356d0319,
  0x24000000000000000000000000002a7000000000000000002020502020505050505010101010100000300000000000000030000000000000000002800000000000a000a0013000a000a0000000000000000031a0000000000000000036d0000000060200c00023100a00d3424020000000000000004400218008a110c80036002310d0800f0011d4001000000e000e000e00f0f050078ff0000000000000024032d010635354f8b8b6b031a,
  0x8600000000000000000000000000195000000000000000002020502020505050505010101010100000300000000000000030000000000000000002800000000000a000a0013000a000a0000000000000000031b0000000000000000036f0000000080820001222000200d1010e00000000000000000400418004d1009800b20030000fa00b4011d4801000000e000e000e00f0f050078ff00000000000000c0032d0106258997258947031b,
  0x80000000000000000000000000055000000000000000002020502020505050505010101010100000300000000000000030000000000000000002800000000000a000a0013000a000a0000000000000000031c0000000000000000036e0000000010412102000200000c1003000000000000000002240510000800008603264b2003e8017c011d4401000000e000e000e00f0f050078ff0000000000000300032d0c0c47ad53475953031c,
  0x1100000000000000000000000000001ae000000000000000002020502020505050505010101010100000300000000000000030000000000000000002800000000000a000a0013000a000a0000000000000000031d00000000000000000371000000000000ac62081040801c1084060000008000000007800250000000008013700b40270f0398011d4301000000e000e000e00f0f050078ff0000000000000114032d0208656b3d676561031d,
  0x15c000000000000000002020502020505050505010101010100000300000000000000030000000000000000002800000000000a000a0013000a000a0000000000000000031e000000000000000003700000000000000000100640000c1000010000008000000001c000102000000800132112000001001e011d4801000000e000e000e00f0f050078ff000000000000000c032d080b1f3b6d83b53b031e,
  0x1808000000000000000000000000000f2000000000000000002020502020505050505010101010100000300000000000000030000000000000000002800000000000a000a0013000a000a0000000000000000031f0000000000000000036c000000084100cc004610c0118d5284060000004000000006002210028a01088003e0030322b00226011d4401000000e000e000e00f0f050078ff0000000000000003032d0f1035612b3565df031f],
  [0x1400000002d20059000002d2000002d200000000000000000605050202060505050502010101010202030202030300030002000000003c64003c002800000000001e001900130010000e000000000000000003200000000000000000036100000002000c1c48d41a54140f100c01000000000000000b000210620841188007e64b0008fc00f0012c4403048e00e800e800e80f0f050078ff000000000000020403ff0d0d597f4f656b610320,
  0x300000000000000000000000000000000000000000000000002020202020505050505010101010100000000000000000000000000000000000000000000000000000a000a000a000a000a00000000000000000321000000000000000003720000000010052463011240426418112000000080000000006085104070001a0003364b0003250064012c4702049000dc00dc00dc0f0f050078ff000000000000030003031108738241735f500321,
  0x2840000002c8018b000002c8000002c800000000000000000605040202060504050502010101010202020202030300030002000000003c64003c003200000000001e001900130010000e0000000000000000032202bb02c80000000003730000000080222c21032302820d3010800000000000000000404078028e110dc003e0033b00de0046012c470100000065006500650f0f050078ff0000000000000048030307015a5a7d507d5a0322,
  0x2020202020505050505010101010100000000000000000000000000000000000000000000000000000a000a000a000a000a00000000000000000323000000000000000003760000000008004210424000088c50000000000000000000000000140000000280232000800012003c00d24601000000e000e000e00f0f050078ff0000000000000040032d03034349494349430323,
  0x4200000000000000000000000000018e000000000000000002020502020505050505010101010100000200000000000000030000000000000000003200000000000a000a0013000a000a00000000000000000323000000000000000003770000000088084210564880188dd481040000004000000009802076020500038023a003c005dc0168010e4601000000e000e000e00f0f050078ff0000000000000300032d0f03497f794949490324,
  0x1100000000000000000000000000001ba000000000000000002020502020505050505010101010100000300000000000000030000000000000000002800000000000a000a0013000a000a00000000000000000325000000000000000003740000000841089c60001041800c1004020000008000000006000211c000410081036e020220080226011d4701000000e000e000e00f0f050078ff0000000000000030031e080565350dd3833d0325,
  0x4000000000000000000000000000253000000000000000002020502020505050505010101010100000300000000000000030000000000000000002800000000000a000a0013000a000a000000000000000003260000000000000000037500000000000600200402087a4e1088040000000000000000100010020a4000c403b22908008200b4011d4801000000e000e000e00f0f050078ff0000000000000300031e07094f976b357f350326,
  0x48000002d101d4000002d1000002d100000000000000000606050202060605050502010101010202020202030300030002000000003c64003c003200000000001e001900130010000e00000000000000000327000000000000000003780000000084612001012302a08d3013800000000000000002442558008c100f800720432f01bd0096012c42010000000a000a000a0f0f050078ff00000000000000c003030c0c50668f4b70580327,
  0x1ae0056000001ae000000970000000000000000040303020204030305050101010101020203030303030003000100000000325a003c003200000000001e001900130010000e000000000000000003280000000000000000037b0000000000000040001040000c100100000000800000000000001000000000800320400000500014009647010000002a002a002a0f0f050078ff00000000000000040303080823372241412e0328,
  0x10000000002e60009000002e6000002e600000000000000000606050202060605050502010101010202020202030300030002000000003c5f003c003c00000000001e001900130010000e000000000000000003280000000000000000037c0000000860008440001040800c1007220000008000000002040010000001088003704b331f4000fa012c470100000059005900590f0f050078ff000000000000000c030308084150228f8f870329,
  0x100000011b004b0000011b00000311000000000000000003030202020303020505010101010103030404040203000200020000000028500032001e00000000001e001900130010000e0000000100000000032a000000000000000003b40000000000202002000000280c1020810000000100000000400050008d00018493211c030032001e003e4301000000e50041004107050332141f0000000000000004012d0b0b282841324132032a,
  0x10000001ca0067000001ca000001ca0000000000000000040403020204040305050101010101020303030402030002000200000000325a003c004600000000001e001900130010000e0000000200000000032a000000000000000003b50000000000202002000000280c1020810000000100000000400050008d00018493211c03008c004600934301000000e50041004107050332141f0000000000000008022d0b0b3c3750465546032b,
  0x100000030a024a0000030a0000030a00000000000000000505040202050504050501010101010202030303030200030002000000003255003c003200000000001e001900130010000e0000000300000000032a000000000000000003b6000000086020208b000104a80c1024830000000900000006412250008d24098497211f03038400d201094301000000e50041004107050332141f000000000000000c032d0b0b463c555a7d64032c,
  0x1e80018000001e8000001e800000000000000000303020202030302050501010101010303040404030300030002000000003255003c002d00000000001e001900130010000e0000000400000000032d000000000000000003ba000000000029020000000a302c30b0840000000200000000000058100530018483200002002d001e003e4801000000ec0042004208050332141f0000000000000040012d0909282845284732032d,
  0x1e601e8000001e6000001e80000000000000000030202020203020205050101010101020203030303030003000200000000325a003c004100000000001e001900130010000e0000000500000000032d000000000000000003bb000000000029020000810a302c30b0840000000200000000000058100530018483200002005a003c00934701000000ec0042004208050332141f0000000000000080022d09093c375e3c5641032e,
  0x1400000030c00180000030c0000030c00000000000000000404030202040403050501010101010202030303030300030002000000003255003c003200000000001e001900130010000e0000000600000000032d000000000000000003bc000000000029062100810a322c30b084000000120000000000205810053007848320230a014a008c01094801000000ec0042004208050332141f00000000000000c0032d09094b41774b7450032f,
  0x16002cb00000160000002cb00000000000000000302020202030202050501010101010303040404030300030002000000003255003c003200000000001e001900130010000e00000007000000000330000000000000000003b70000000400200000000020002c10001000000004000000000000100001306192832e00000028001e003e4101000000610043004305020332141f0000000000000440012d0a0a2846462828320330,
  0x14a00390000014a0000016000000000000000000303020202030302050501010101010203030303030300030003000000002d55003c003200000000001e001900130010000e00000008000000000330000000000000000003b80000000400200000000020002c10001000000004000000000000100009306192832e00000073004600934101000000610043004305020332141f0000000000000200022d0a0a375f5a373c410331,
  0x40000000003802e900000038000002e900000000000000000303020202030302050502020101010406020203030300030002000000003255003c003200000000001e001900130010000e00000009000000000330000000000000000003b90000000400300000040020022c117079000000240000000880005000093861928b2e030001c400be01094101000000610043004305020332141f00000000000000c0032d0a0a417d784155460332,
  0x50009000000000000014b00220000014b00000021000000000000000003030202020303020505010101010104040405050303000300020000000032500032003200000000001e001900130010000e000000180000000003330000000000000000038d0000000000000000081004098c1200020000000000000002001010000e24008083a080000019001e003745010000005200a700a705050032147f0000009b0000000101ff00002323193737460333,
  0x6000a000000000000002200a20000002200000022000000000000000005040402020504040505010101010102030303040303000300020000000032500032002800000000001e001900130010000e000000190000000003330000000000000000038e0000000a00400000081004898c12040300000000000000060010101c0e24008083a08300003c003c00a145010000005200a700a705050032147f0000009e00000002025a00004b37145f5f780334,
  0xa3000000000200000002a901d4000002a9000002a900000000000000000403030202040303050501010101010304040405020200020002000000002850003c003200000000001e001900130010000e00000015000000000335000000000000000003960000000000200014000000200c3030000000000000000000800090000700858087a00040001200140031410100000091007f0033040403320f7f000000000000004001ff0202232139232f260335,
  0xa4000000000200000002a901d4000002a9000001d400000000000000000303030202030303050501010101010303030304020300020002000000002855003c003200000000001e001900130010000e00000016000000000335000000000000000003970000000000200014000000200c3030000000000000000000800090000700858087a0004000a000500080410100000091007f0033040403320f7f000000000000008002780202372b4d3743440336,
  0xa5000000000200000002a901d4000002a9000000d300000000000000000403030202040303050501010101010203030304030300030002000000003255003c003200000000001e001900130010000e00000017000000000335000000000000000003980000000802208454000140200c30300200000080000000008000900007008580c7a7034002ee00dc00f84601000000f0007f002e040403320f7f0000000000000030032d08025535436957620337,
  0xe000000000000020a020a0000020a0000020a00000000000000000303030202030303050501010101010404040505030200030002000000002850003c003200000000001e001900130010000e0000000a000000000338000000000000000003a200000000000000000000000000000000000000000000000000000000000000000000000000500028002441010000008c000e0044030300320f7f000000000000040001ff06062d192d1414190338,
  0xf00000400000001800073000001800000005d0000000000000000050505020205050505050101010101030404040501010001000200000000325a003c003200000000001e001900130010000e0000000b000000000338000000000000000003a300000008000c0022200241460e1408000000000000000000080011c032001280832e080000c30028007542010000008c000e0044030300320f7f000003720000080002780d065a321e5023320339,
  0x10000004000000005e00f30000005e0000003c00000000000000000605050202060505050501010101010202030303030200030002000000003264003c003200000000001e001900130010000e0000000c000000000338000000000000000003a400000008000c0022200241462e1418000000000000000000080011e033001280932e0b000198002800fd40010000008c00770044030300320f7f0000037200000c00032d0d0678505a6e2d3c033a,
  0x80000000022b01a10000022b0000002700000000000000000403020202040302050501010101010303040405030200030002000000002855003c003200000000001e001900130010000e0000001d00000000033b000000000000000003850000000004020010000000202c101000000000000000000000301000042081a083a180000059003c00314501000000c600540032050504320f7f000000000000040001ff1010342f321c1c28033b,
  0x80020000022b01a10000022b000001ec00000000000000000404030202040403050501010101010303030304030300030002000000002855003c003200000000001e001900130010000e0000001e00000000033b000000000000000003860000000004022010040000232c10180000000000000000000030501e052081a083a1830000c70078009f4501000000c600540032050504320f7f0000000000000800027f10105c575a3a3a46033c,
  0xa600000000001000000218004b000002180000004b00000000000000000403030202040303050501010101010404040505020200020002000000002d500032002800000000001e001900130010000e0000007e00000000033d000000000000000003890000000100002082000004000c10000000000000000000000100100000040284b3220c0000160028003243010000001b009000ee07070032147f000000000000040001be0b0b3c280a3c2828033d,
  0xa70000000000100000021800b200000218000000b20000000000000000060505020206050505050101010101030304040403020003000200000000375a003c003200000000001e001900130010000e0000007f00000000033d0000000000000000038a0000000100002082080004000c10000000000000000000000100100000044284b3220f000019003200a143010000001b009000ee07070032147f0000000000000800024b0b0b78503c5a323c033e,
  0x300000000001000000024021a000000240000001d000000000000000004040302020404030505010101010104050506060302000300020000000032500032002800000000001e001900130010000e0000002200000000033f0000000000000000038f0000000000410000000000000c3010000000000000000000000010002200008083204000003c003c007a4801000000ab003200da050500320f7f000000000000001001ff00002d283037282a033f,
  0x4000000000010000000b3021a000000b30000021a00000000000000000505040202050504050501010101010303030404030200030001000000002d500032003200000000001e001900130010000e0000002300000000033f000000000000000003900000000800410020000000002c301003000000000000000000009000221000808320430201ae008200ac4801000000ab005000da050500320f7f0000000000000020027f00005a3c586450480340,
  0x3800004800000002ea002c000002ea0000002c000000000000000003030302020303030505010101010103040404050303000300030000000028550032002d00000000001e001900130010000e0000002a000000000341000000000000000003870000000400000000000000000c10001a00000000000000000000100806202492832000000055001e0039430100000021004b00ad02010032147f000000000000000401ff0a0a26262c3240320341,
  0x39000058000000013d02c60000013d0000013d00000000000000000505040202050504050501010101010203030404030300030003000000002d500032003200000000001e001900130010000e0000002b000000000341000000000000000003880000000cc0101808020060819c11047b0000000000000005400a100806632493876083000483006400aa430100000021004b00ad02010032147f0000000000000008024b050a44304a5a735a0342,
  0x9b000000000008000000d10261000000d10000026100000000000000000303030202030303050501010101010304040405030300030003000000003250003c003200000000001e001900130010000e0000002e0000000003430000000000000000038b0000000004410000000000090c10030000000000000000000021101400000380a320c0000087001e003642010000009b00ed00ed05050432147f000000000000000101ff0c0c32281a322d3b0343,
  0x9c000000000008000002100246000002100000026100000000000000000404030202040403050501010101010303030404030300030003000000002855003c002d00000000001e001900130010000e0000002f0000000003430000000000000000038c0000000204410000000104090c10330000000000000000002421101400000380a320c3000154006400ac4201000000ac00ad00ad05050432147f0000000000000080022d0c0c3c5a793c5a450344,
  0xb0000000001000000000f600e5000000f60000018d00000000000000000303030202030303050501010101010404040505030200030001000000002d55003c003200000000001e001900130010000e000000a1000000000345000000000000000003a50000000001001c00001040000c900000000000000000000000001000004300c1837480000078001e0030440100000012005500f30a0a03320f7f000000000000001001ff050532281e32281e0345,
  0xb10000000011000000015e01e80000015e000001e800000000000000000403030202040303050501010101010303040404030300030002000000002d55003c002800000000001e001900130010000e000000a2000000000345000000000000000003a60000000841109c00009048100c908004000000000000000000001000004300c18374a000030c006e0090440100000012003100f30a0a03320f7f000000000000002002780905463c325a3c500346,
  0xb2000000001100000001e802ed000001e8000002ed00000000000000000505050202050505050501010101010202030303030300030002000000003c64003c003c00000000001e001900130010000e000000a3000000000345000000000000000003a70000000841109c08009048100c908406000000000000000000021000004300c18374ab0b0c21011800ff440100000012003100f30a0a03320f7f0000000000000030002d09055a501e78506e0347,
  0x130000001000000136006e000001360000013600000000000000000303030202030303050501010101010303040404030200030003000000003255003c003200000000001e001900130010000e000000cd000000000348000000000000000003c60000000000000000000000000000000000000040000000000000000000000000800000000005001400344301000000ab005200f70e070132147f000000000000001001ff0f0b2828145028280348,
  0x140000021000000314004900000314000003140000000000000000040303020204030305050101010101020303030303030003000200000000375a0032003200000000001e001900130010000e000000ce000000000348000000000000000003c7000000000000a002480840000d1020000000004000000000800050000104008497200b40000a001e00aa430100000037005200f70e070132147f0000000000000008022d0f0b3c5f46506e460349,
  0x150000001000000313004a00000313000003130000000000000000060504020206050405050101010101020203030303030003000200000000325a003c002d00000000001e001900130010000e000000cf000000000348000000000000000003c8000000084000a002481040800d12040200000040000000000002100002040084932e0b000082002800aa43010000002f005200f70e070132147f0000000000000002022d0f0b50641e50556e034a,
  0xae00004900000001e90089000001e90000008900000000000000000303030202030303050501010101010304040405020300020001000000002d55003c003200000000001e001900130010000e0000013800000000034b000000000000000003a80000000000800008000000000c1004000000000000000002000210000022008183218000004c00dc003f430100000008003d00f50e050032147f000000000000001001ff040432232e4b3934034b,
  0xaf00004900000001e90148000001e90000014800000000000000000303030202030303050501010101010203030304020300020002000000002d5a003c003200000000001e001900130010000e0000013900000000034b000000000000000003a90000000842801c28000040000d1004000000000000000002000210100063008183618300028f017c00b3430100000008003d00f50e050032147f0000000000000020027804044641477d6b48034c,
  0x5d00000200000000390041000000390000003900000000000000000404040202040404050501010101010304040404020200020001000000003255003c003200000000001e001900130010000e0000013500000000034d000000000000000003950000000482100004000000880c32107800000000000000008000100004006092cba0034000b4005000a64103049100f100f100f104020032147f0000000000000800022d0a025f5555375546034d,
  0x6000004000000002c600f2000002c60000004000000000000000000303020202030302050501010101010303030404030300030002000000002d55003c003200000000001e001900130010000e000000b400000000034e000000000000000003910000000680900000022000010c1130000000000000000000000010080410299283200000000a003200384501000000ef002100210c0c0532147f000000000000004001ff0a0a1e2842283f29034e,
  0x6100004004000002a302c6000002a3000002a300000000000000000303030202030303050502020101010406030303030300030002000000002d55003c003200000000001e001900130010000e000000b500000000034e000000000000000003920000000680900000022000010c1130180000000000000000000010080410299287200300012c008200ac4501000000ef002100210c0c0532147f0000000000000080023c0a0a323c883c7b3d034f,
  0x330261000000330000003300000000000000000303030202030303050501010101010404040505030300030003000000002850003c002d00000000001e001900130010000e00000136000000000350000000000000000003990000000000000000000000004c1000000000000000000000000010000000008083200000006e002800304601000000670009009b0f0f0332197f0000000000000100014b030c2336282326280350,
  0x80000024a03120000024a000003120000000000000000030302020203030205050202020101080a0c0404020200020002000000002855003c003200000000001e001900130010000e000001370000000003500000000000000000039a0000000080454200020004284c5003000000000000000000202134008a0001808721432b019000a000b0460204930065003900f408080332197f0000000000000200022d030c46724b46624b0351,
  0x63000000000900000001e900ac000001e90000002300000000000000000303030202030303050501010101010303030405020300020002000000002850003c003200000000001e001900130010000e0000009f000000000352000000000000000003930000000001100100200000110c1400000000000000000002000014000000008483202000000a0046003d4001000000310049001203030032147f000000000000000401be060932322d2d41320352,
  0x64000000000900000000ac01e9000000ac000001e900000000000000000403030202040303050501010101010202030303030200030002000000002d55003c002d00000000001e001900130010000e000000a0000000000352000000000000000003940000000001100100308008110c148004000000000000000210001414000000c483202b0004b0012c00b84001000000310049001203030032147f0000000000000008024b06095a5a414173640353,
  0x810000004000000014010d0000001400000014000000000000000002020202020202020505010101010103030404040303000300010000000028550032002d00000000001e001900130010000e0000015f000000000354000000000000000003c40000000400200001002120a00c31000200000000000000000000900002a02c80832000110028003c003e4501000000650007000708020332197f000000000000000401b401013232203c44320354,
  0x8200000840000000b302f1000000b3000002f10000000000000000040403020204040305050101010101020203030303030003000200000000325a0032003200000000001e001900130010000e00000160000000000354000000000000000003c50000000400200001002120a00c31001a00000000000000060000900082a02c9087208311018600a000a84101000000650007000708020332197f0000000000000008022d010150462a5a76500355,
  0x84000000002000000000f701a1000000f7000001a1000000000000000003030302020303030505010101010104040405050303000300010000000037550032003200000000001e001900130010000e0000014f000000000356000000000000000003cc00000000000e0010040000422e104800000000000000000000403080020010c0132000000002000a003e460204940082008500850b0a003214ff000000000000010001780707364a322d2d280356,
  0x85000000002000000000f701a1000000f7000000f700000000000000000403030202040303050501010101010303040404030100030001000000002850003c003200000000001e001900130010000e00000150000000000356000000000000000003cd00000000000e0010040000422e104800000000000000000000403080020010c0133603000004001400b2460204950082008500850b0a003214ff0000000000000200023c070772864641413c0357,
  0x2800000000040000000317003c000003170000031700000000000000000202020202020202050501010101010304040405020200020002000000002855003c002800000000001e001900130010000e000000f1000000000358000000000000000003c90000000014040000040201002e10080000000000000000001080100000001280b32a440000220028003549010000009c006b00830606053214fe000000000000010001eb0d0d3538272d1e2a0358,
  0x29000000000400000002b5024d000002b5000002b500000000000000000303020202030302050501010101010304040404030200030002000000003755003c003700000000001e001900130010000e000000f2000000000358000000000000000003ca0000000014040000040201002e10080000000000000000021080100000001280b32a44000030003c008249010000009c006b00830606053214fe000000000000020002780d0d4956314128390359,
  0x2a0000000204000000025d015b0000025d0000025d00000000000000000504040202050404050501010101010202020303030300030002000000003255003c002d00000000001e001900130010000e000000f3000000000358000000000000000003cb0000000014040100040201062e1008010000000000000002108011e230001280b32a4700003300d200ff49010000009c006b00830606053214fe0000000000000300032d110d67881d5f5a39035a,
  0x25000000008002000001030104000001030000024e00000000000000000303030202030303050501010101010404040405030300030002000000002d55003c003200000000001e001900130010000e000000ee00000000035b000000000000000003bd0000000014020010040000680c1440800000000000000000008090008400848083a0400300370028003549010000007c0077009e080600321400000000000000010001ff11102837321e2d2d035b,
  0x260000000080020000031900cf00000319000003190000000000000000030303020203030305050101010101030304040402020002000200000000375a003c002800000000001e001900130010000e000000ef00000000035b000000000000000003be0000000094020010040000680c1440800000000000000000008090028400848083a64003007d0050008249010000007c0077009e080600321400000000000000020002781110374b462d3c41035c,
  0x2700000000800200000315010300000315000003150000000000000000040403020204040305050101010101020303030403020003000200000000285a0032002800000000001e001900130010000e000000f000000000035b000000000000000003bf00000008b4020111040100e90c14608200000000000000040080988294008c8087a6433b0262009600ff46010000007c0077009e080600321400000000000000000c032d11104b5f3c41785f035d,
  0x49000000008000000000440318000000440000004400000000000000000706050202070605050501010101010303030404020300020002000000003264003c002800000000001e001900130010000e00010021000100010107000000000000000003a00000000880202200182144628c3023f20000000000000004002092020e208f968fa1c3bb01cc00a00104470100000080003e0078050500320f7f0000000000000030032d0010513c5f655a5d035e,
  0x8000000001d401ba000001d4000000e80000000000000000050504020205050405050101010101020303030303030003000200000000325a003c003200000000001e001900130010000e000200b7000100020034000000000000000003af00000000842286100c30442bac1203030000008000000000000090020f00008683a1830401180050009a4501000000fc00b5000405050032147f0000000000000008025a08083c3232646e46035f,
  0x30020000029c00b40000029c000000b4000000000000000005040402020504040505010101010102020303030302000300020000000032640046004b00000000001e001900130010000e000100ed0001000100de000000000000000003b30000000480101808800240020c160c7a00000000000000040002300000c904df9b7f83800004006400b34801000000fd008500850902043214bf0000000000000200021e070782911e325f3c0360,
  0x2500000015c000e0000015c0000015c00000000000000000504040202050404050501010101010203030303030200030003000000003c64003c003200000000001e001900130010000e000100db000100010053000000000000000003d50000000080200004022440800c10200300000000000000020000900004000e84c32010000492005000b14801000000710050005005040032147f0000010300000008022d01015244415f873e0361,
  0xc000000000420000000f3023d000000f3000000f300000000000000000504040202050404050501010101010202030303020300020002000000002d5a003c003c00000000001e001900130010000e0001016e00010001007a000000000000000003d400000000100e20330002416e6e104b6200000000000000040a0011c1ba088a8eabaf4b130246009600b646010000007300fb004d08080032197f0000000000000300022d0d0e646e464b55500362,
  0x200000000059003200000059000001a500000000000000000504040202050404050501010101010202030303030300030002000000003764003c003200000000001e001900130010000e00010148000100010232000000000000000003d3000000080008383a444241620c120c000000000000000002004230c2324394c387e80300029a00a000a94701000000fe00fe00fe0b0a0032197f0000000000000020025a070469321e915f3a0363,
  0x25d00970000025d00000241000000000000000003030302020303030505010101010104040405050102000100030000000032500032002800000000001e001900130010000e000000b90000000003640000000000000000039c0000000010040000000000000c10000000000000000000000280100008000280a32000000003001400364801000000a500af00af0b06003214fe000000000000040001c811113d322228282d0364,
  0x200000000025d00970000025d0000009700000000000000000504040202050404050501010101010203040404030200030002000000003255003c003200000000001e001900130010000e000000ba0000000003640000000000000000039d0000000014040002000200004e18480000000000000000001280118088009280b32a0f000005001e00ad4809049600a500af00af0b06003214fe000000000000080002641111796e404b3c410365,
  0x40000002ec0074000002ec000002ec0000000000000000060605020206060505050101010101020304040401020001000100000000325a003c003200000000001e001900130010000e000001590000000003660000000000000000039b0000000080000421022140801c30300100000000000000014000900006010ea003610300026c012c00a5420100000080000400040a06003219ff0000000000000408022d01013c464b6464410366,
  0x9e007e00000008000000ae01b3000000ae000002cc0000000000000000040403020204040305050101010101020203030302030002000300000000325a003c003200000000001e001900130010000e00000161000000000367000000000000000003b00000000488100000024020000cb003180000000000000000040034000680008283304080000a001e00984601000000e2001f001f0b020032147f0000000000000008024b0c0c555b0f5f65300367,
  0x10000000008000000020a00b50000020a000000b5000000000000000003030202020303020505010101010104040505050302000300010000000032550032002800000000001e001900130010000e0000015d000000000368000000000000000003b10000000000000000200000000c100000000000000000000000001000000800808b2000000026001e00254801000000f60013001303030032147f000002890000010001be060e1e2d1423191e0368,
  0x2000000000a20000000c401e3000000c4000000c40000000000000000050504020205050405050201010101060203040402020002000300000000325a003c002800000000001e001900130010000e0000015e000000000368000000000000000003b20000000016000000200200000c140060000000000000000080005001010852889b2e030001a4008200a64801000000f60013001303030032147f0000000000000200024b060e5a7d413c41460369,
  0x59000000001000000001bc0059000001bc000001bc00000000000000000505050202050505050501010101010202030303030300030002000000003750003c002800000000001e001900130010000e0000017100000000036a000000000000000003ce0000000801009808000040800c1004020000000000000006000210800443108183780302145000fa00a54701000000f900f900f90a0a0532197f0000000000000020023c0505141446877d64036a,
  0x5a0000000000000000023d00c40000023d000000c40000000000000000050404020205040405050101010101020303030303030003000200000000375a003c003200000000001e001900130010000e0000017200000000036b000000000000000003cf0000000400000420000040000c331078000000000000000000001001008860988b240010037a008c00a54102049e00f800f800f805020532197f0000000000000020023c0e0e5a41326e504b036b,
  0xab0000000004010000005e00e30000005e000000e300000000000000000503030202050303050501010101010303030404030200030002000000002d55003c003200000000001e001900130010000e0000015100000000036c000000000000000003ae00000000140c0022000204464e1848000000000000000000188011c090001380832004040118005a00a64602049f00e3001c00270606048c28000000000000000200021e000d5f695f37413c036c,
  0x9d0068000080080000030f01030000030f0000030f0000000000000000040303020204030305050201010101040303030402020002000200000000325a003c003200000000001e001900130010000e0000015800000000036d000000000000000003ad00000002004300100c0000290d10130000000000000000040425101c0e048d8087a04020001e001e0099420204a0010201020102060500320a7f000000000000008002b4100c3a46613a5f3a036d,
  0x6c0000000100000000029b020b0000029b000000170000000000000000050404020205040405050101010101030304040403030003000300000000325a003c004b00000000001e001900130010000e0000012e00000000036e0000000000000000039e0000000844201528000040800c100002000000800000000600021000086108808361800203e800780042420100000086007d007d0a050032197f000001170000000401be0808312828315048036e,
  0x6d0000000100000000020b01ba0000020b0000020b00000000000000000505040202050504050501010101010202030404030300030003000000003255003c003200000000001e001900130010000e0000012f00000000036e0000000000000000039f0000000845209d68000040a00d1004020000008000000006002210000a610c80876183021964012c00af430100000086007d007d0a050032197f0000011700000008025a080845501e45827a036f,
  0x1008000002f201b3000002f2000002f200000000000000000303030202030303050501010101010203030303030300030003000000003255003c002d00000000001e001900130010000e00000176000000000370000000000000000003c00000000040410808400080208d108786000000400000000e000210140041008603606323076c00b400b14301000000920037000a0f0f053223ff0000000000000008022d0f0c46504b5a645a0370,
  0x1008000002f201a3000002f2000002f200000000000000000303030202030303050501010101010203030303030200030003000000003255003c002d00000000001e001900130010000e00000177000000000371000000000000000003c10000000000410800000004208c1003fa00000000000000040002100d0249008a0b60432305dc00e600b14101000000ca0009000a0f0f053223ff0000000000000008022d0e0c505a375a645a0371,
  0x1000000002f300a2000002f3000002f300000000000000000303030202030303050501010101010203030303030200030003000000003250003c002d00000000001e001900130010000e00000178000000000372000000000000000003c20000000600100c28400000010d15049a00000040000000060002100800c1209203600302086600e600b143010000009200ad000b0f0f053223ff0000000000000020022d0f0a50464b645a5a0372,
  0x1000000002f3023d000002f3000002f300000000000000000303030202030303050501010101010203030303030200030003000000003255003c002d00000000001e001900130010000e00000179000000000373000000000000000003c30000000600000c20000040010c11007a00000000000000000000100900c9209a0b60030006d600c800b14101000000ca0073000b0f0f053223ff0000000000000020022d0e0a5a5037645a5a0373,
  0x10000000003100170000003100000031000000000000000000505050202050505050501010101010202030303030200030002000000003264003c003200000000001e001900130010000e00000173000000000374000000000000000003a10000000800029c404410c0000d100303000000c00000000c002010000001088087674b00019000b400bb4801000000f2008600870e0a00321e7f0000000000000200022d0f08327855735f460374,
  0x6e00000000000000000136026300000136000002630000000000000000040303020204030305050101010101030303030403030003000200000000325a003c003200000000001e001900130010000e0000018b000000000375000000000000000003d00000000000000000000000002c10000000000040000000000000100000000380832040000014003200364301000000820097001d0e0b0532287f0000000000000040012d070f1e28521e3c1c0375,
  0x6f000000000000000001fa015d000001fa0000019600000000000000000404040202040404050501010101010203030303030300030002000000003755003c003200000000001e001900130010000e0000018c000000000375000000000000000003d10000000200180000400800022d10931c000000400000000800407000058023e0c3a04000006e008c00904301000000820097001d0e0b0532287f0000000000000080022d070f323c663250440376,
  0x70000000000000000002ef015d000002ef000002ef00000000000000000404040202040404050502010101010302030303030300030002000000003264003c003c00000000001e001900130010000e0000018d000000000375000000000000000003d20000000200180000400880022d18931e000000400000000800407000058023e0c3a64b4001f4012c012c4301000000820097001d0e0b0532287f00000000000000c0032d070f4b648e4b78580377,
  0x2020202020505050505010101010100000000000000000000000000000000000000000000000000000000000000000000000000018e000400000378000000000000000003aa0000000204600401002004018c3030010000008000000002c030903c04001f8007209300044c0118014f410204a100ea00ea00ea0f0f050078ff00000000000000c0030a111173508a73825c0378,
  0x400000000000000000000000000000000000000000000002020202020505050505010101010100000000000000000000000000000000000000000000000000000000000000000000000000018f000400000379000000000000000003ab0000000214600441002044018c30300000000080000000000030901c32001780072e8b0008340122014f400204a200eb00eb00eb0f0f050078ff00000000000000c0030a010173508a73825c0379,
  0x10000000000000000000000000000000000000000000000002020202020505050505010101010100000000000000000000000000000000000000000000000000000000000000000000000000019000040000037a000000000000000003ac0000000008004040424810020c5010040000004000000002100016000600008007270b40251c07d00159460204a3002e002e002e0f0f050078ff000000000000000303ff0f035f91825f558c037a,
  0x64000000400000000000000000000000000000000000000000000002020202020505050505010101010100000000000000000000000000000000000000000000000000000a000a000a000a000a0000000000000000037b000000000000000003d60000000000200420002100800c30208200000000000000000000d80001000e808720803b0078003c004d470100000027002700270f0f0532781f0000000000000004010301013235483c5a3c037b,
  0x65000080400000000000000000000000000000000000000000000002020202020505050505010101010100000000000000000000000000000000000000000000000000000a000a000a000a000a0000000000000000037b000000000000000003d700000008a0220c21072140a10c30208200000000000000004020d8008f010fa08760823b041a00be0113470204a40104010401040f0f0532781f000000000000000c030310013c3f61648264037c,
  0xd3000080100000000000000000000000000000000000000000000002020202020505050505010101010100000000000000000000000000000000000000000000000000000a000a000a000a000a0000000000000000037d000000000000000003dc00000000a00021120c2104a1cc1000820000000000000006012050008f250d8417e09f0302bc00b4012c430204a50066006600660f0f050078ff000000000000000c03030b105f4669697869037d,
  0xc80000000000080000000000000000000000000000000000000000000002020202020505050505010101010100000000000000000000000000000000000000000000000000000a000a000a000a000a0000000000000000037e000000000000000003dd0000000000410000000000000c101302000000000000000024055000041001820337430005aa00780122420100000106010601060f0f052378ff00000000000000c003030c0c3264c8326450037e,
  0xc90000000040000000000000000000000000000000000000000000000002020202020505050505010101010100000000000000000000000000000000000000000000000000000a000a000a000a000a0000000000000000037f000000000000000003de0000000000000000400880010d302002000000400000000800001014000000800336030007d000d20122430100000107010701070f0f052378ff000000000000000303030f0f3264503264c8037f,
  0xd00000000080000000000000000000000000000000000000000000000002020202020505050505010101010100000000000000000000000000000000000000000000000000000a000a000a000a000a00000000000000000380000000000000000003d800000008c0008000002040a91d100063000000000000000500221001062800880f2003001f4000dc0122480100000108010801080f0f052378ff000000000000000c03030e0e6e411e8291640380,
  0xd10000000080000000000000000000000000000000000000000000000002020202020505050505010101010100000000000000000000000000000000000000000000000000000a000a000a000a000a00000000000000000381000000000000000003d900000000000200100402002b0c101002000000000000000400623020062001c00720030001bd00c80122440100000109010901090f0f052378ff0000000000000300030307075091823c41640381,
  0xd20000000004000000000000000000000000000000000000000000000002020202020505050505010101010100000000000000000000000000000000000000000000000000000a000a000a000a000a00000000000000000382000000000000000003da00000001000c20a2080201446e1858000000000000000000098011c070041384132e1f04004d006e00fa430304a6007f007f007f0f0f056478ff000000000000000303030b0d5050505050640382,
  0x1010101010101010101010101010100000000000000000000000000000000000000000000000000000100010001000100010000000000000000000000000000000000000000000000000000000000000000000000000000000000000000000000000000000000000000000000000000000000000000000000000000000000ff0000000000000000000000000000000000000383],
  [0x1010101010101010101010101010100000000000000000000000000000000000000000000000000000100010001000100010000000000000000000000000000000000000000000000000000000000000000000000000000000000000000000000000000000000000000000000000000000000000000000000000000000000ff0000000000000000000000000000000000000384,
  0x5500000008000001580068000001580000005600000000000000000403020202040302050502020101010306020303020300020002000000001455003c003c00000000001e001900130010000e000000c20000000000ac02cf0055000000000019000000000441201000000008cc30131200000000000000000485100008000b82a3a6c027003c00280070420a0385001f000900090f0f00320a00000000ec0000008002be0c0c32325a2837230385,
  0x5500000008000001580068000001580000005600000000000000000403020202040302050502020101010506020303020300020002000000001e55003c003c00000000001e001900130010000e000000c20000000000ac02cf0055000000000019000000000441201000000008cc30131200000000000000000485100008000b82a3a6c027003c00280070420a0385001f000900090f0f00320a00000000ec0000008002be0c0c32325a2837230386,
  0x5500000008000001580068000001580000005600000000000000000403020202040302050502020101010506020303020300020002000000001455003c003c00000000001e001900130010000e000000c20000000000ac02cf0055000000000019000000000441201000000008cc30131200000000000000000485100008000b82a3a6c027003c00280070420a0385001f000900090f0f00320a00000000ec0000008002be0c0c32325a2837230387,
  0x5500000008000001580068000001580000005600000000000000000403020202040302050502020101010506020303020300020002000000001455003c003c00000000001e001900130010000e000000c20000000000ac02cf0055000000000019000000000441201000000008cc30131200000000000000000485100008000b82a3a6c027003c00280070420a0385001f000900090f0f00320a00000000ec0000008002be0c0c32325a2837230388,
  0x5500000008000001580068000001580000005600000000000000000403020202040302050502020101010506020303020300020002000000001455003c003c00000000001e001900130010000e000000c20000000000ac02cf0055000000000019000000000441201000000008cc30131200000000000000000485100008000b82a3a6c027003c00280070420a0385001f000900090f0f00320a00000000ec0000008002be0c0c32325a2837230389,
  0x5500000008000001580068000001580000005600000000000000000403020202040302050502020101010506020303020300020002000000001455003c003c00000000001e001900130010000e000000c20000000000ac02cf0055000000000019000000000441201000000008cc30131200000000000000000485100008000b82a3a6c027003c00280070420a0385001f000900090f0f00320a00000000ec0000008002be0c0c32325a283723038a,
  0x5500000008000001580068000001580000005600000000000000000403020202040302050502020101010506020303020300020002000000001455003c003c00000000001e001900130010000e000000c20000000000ac02cf0055000000000019000000000441201000000008cc30131200000000000000000485100008000b82a3a6c027003c00280070420a0385001f000900090f0f00320a00000000ec0000008002be0c0c32325a283723038b,
  0x1010101010101010101010101010100000000000000000000000000000000000000000000000000000100010001000100010000000000000000000000000000000000000000000000000000000000000000000000000000000000000000000000000000000000000000000000000000000000000000000000000000000000ff000000000000000000000000000000000000038c,
  0x5500000008000001580068000001580000005600000000000000000403020202040302050502020101010506020303020300020002000000001455003c003c00000000001e001900130010000e000000c20000000000ac02cf0055000000000019000000000441201000000008cc30131200000000000000000485100008000b82a3a6c027003c00280070420a0385001f000900090f0f00320a00000000ec0000008002be0c0c32325a283723038d,
  0x56000004080000005e01a10000005e000001a100000000000000000403020202040302050502020101010608030303030300030001000000003255003c003200000000001e001900130010000e000000c30000000000ac02bc005500000000001a00000000044d20110002000cce301b1200000000000000000485110048000b82a3aec32700d2004600f34502038e00cf00cf00cf060500320a7f00000000000000c0034b0d0c555f6e32553c038e,
  0xa8000100200000003b01020000003b0000000e0000000000000000050404020205040405050101010101040404050501010001000100000000375f003c003c00000000001e001900130010000e0001000000010000001b0000000000000000001b0000000080201400121040008c1604430000008000000000000210030809098c8be8801001900046003c4802038f00ca0051005105050032147f0000011e0000001001ff080e230a285a4b32038f,
  0xa9000100200000003b01020000003b0000000e0000000000000000050404020205040405050101010101040404050501010001000100000000375f003c003c00000000001e001900130010000e0001000000010000001b0000000000000000001c0000000080a01401121040008c9614430000008000000000000210030809098c8be8839002260078009e4102039000ca0051005105050032147f0000011e00000020025a080e41194178644b0390,
  0x3b006d0000003b000000b500000000000000000303030202030303050501010101010303040405020200020002000000003250003c002800000000001e001900130010000e0001004400010000002500000000000000000025000000000002002004000000cc1010620000000000000000009030001200518aab2880000063003c003c480203910075005100510505003214bf000002890000004001be0e0e4132412829260391,
  0x200000025d00c40000025d000000c400000000000000000505040202050504050501010101010202020303030300030002000000002d55003c003200000000001e001900130010000e0001004500010000002500000000000000000026000000001006003004020000ce1010620000000000000000029030811200d18aab288b0000c7006e00b1410203920075005100510505003214bf0000028900000080024b110e64516d4b43490392,
  0x100000000e80136000000e8000000e8000000000000000003030202020303020505010101010103030303040303000300020000000028500032002800000000001e001900130010000e000100a4000100000032000000000000000000320000000000280448000040080c701402000000800000000400021002040100a583e18000000a0014003545020393009f00dd000805050032147f000000ed0000104001ff08042d235a1e370a0393,
  0x1000000005901ba00000059000001ba000000000000000002020202020202020505020201010106080203030303000300020000000032500032003200000000001e001900130010000e000100a5000100000032000000000000000000330000000040284c48000040080c781402000000800000000400021002040300a583e18300029a0046009545020394009f00dd000805050032147f000000ed000010080232080446326e3c64230394,
  0x800000000006010d00000006000000060000000000000000030202020203020205050202010101080a0406060202000200010000000028550032002800000000001e001900130010000e000100b60001000200340000000000000000003400000000842202100c00042a8c12030200000000000000000000900207000186aba18004002a0028003a41030395009b0065003505050032147f000000d90000004001ff101028325a2323280395,
  0x8000000000060067000000060000000600000000000000000403030202040303050501010101010304040505030300030001000000002d500032003200000000001e001900130010000e000200b60001000200340000000000000000003400000000842206100c10442b8c1203030000008000000000000090020700008683a18004004b0028003a45030395007f00b5003505050032147f000000000000000401ff08082828283741320396,
  0x8802000002470067000002470000010d00000000000000000302020202030202050502020101010406030404030300030002000000003255003c002800000000001e001900130010000e000100b80001000200340000000000000000003500000000842202108c00042a8c120302000000000000000000209002070081a6aba18304014a006e009a41020397009b006500a905050032147f000000d900000080025a1010414b733c3c410397,
  0x1010101010101010101010101010100000000000000000000000000000000000000000000000000000100010001000100010000000000000000000000000000000000000000000000000000000000000000000000000000000000000000000000000000000000000000000000000000000000000000000000000000000000ff0000000000000000000000000000000000000398,
  0x1010101010101010101010101010100000000000000000000000000000000000000000000000000000100010001000100010000000000000000000000000000000000000000000000000000000000000000000000000000000000000000000000000000000000000000000000000000000000000000000000000000000000ff0000000000000000000000000000000000000399,
  0x1010101010101010101010101010100000000000000000000000000000000000000000000000000000100010001000100010000000000000000000000000000000000000000000000000000000000000000000000000000000000000000000000000000000000000000000000000000000000000000000000000000000000ff000000000000000000000000000000000000039a,
  0x690000000004000000002400170000002400000027000000000000000004030302020403030505010101010103040404040303000300020000000028500032002800000000001e001900130010000e0001014d00010001004d0000000000000000004d00000000544c0020000200048c10188200000000000000001000100000101180a320000000f0005000524802039b006b0101003205050032147f000000000000004001be0d0d41415a375532039b,
  0x6a0000000004000000025d01ab0000025d000001ab00000000000000000404040202040404050501010101010202030303030300030003000000003255003c003700000000001e001900130010000e0001014e00010001004d0000000000000000004e00000000d4cc002000020004bc10188300000000000000011a0011e000101180a3200304032000aa00af4802039c006b0101003205050032147f0000000000000080023c110d505069466441039c,
  0x1000004000000005e01190000005e0000011900000000000000000605050202060505050501010101010505050606020200020002000000004664003c003c00000000001e001900130010000e0001000000010001004f0000000000000000004f0000000400162020000201468e1a8c7e0000000000000000080210c000a0719e8b2ac00401680078003f4902039d00900014005202010032147f000000000000000101be0d0d28280f41415a039d,
  0x1010101010101010101010101010100000000000000000000000000000000000000000000000000000100010001000100010000000000000000000000000000000000000000000000000000000000000000000000000000000000000000000000000000000000000000000000000000000000000000000000000000000000ff000000000000000000000000000000000000039e,
  0x200000400000003210119000003210000011900000000000000000403030202040303050501010101010303030404020200020002000000002d550037003700000000001e001900130010000e0001000000010001004f000000000000000000500000000400166031020261468e5a8c7e0000000000000002080a14c188a0799e8b2ac31702c100a000ac4903039e00900014010302010032147f0000000000000008024b0d0346641e5f645f039f,
  0x2000000015c02b50000015c0000001500000000000000000303030202030303050501010101010203030304030300030002000000003255003c002d00000000001e001900130010000e000100da000100010053000000000000000000530000000080200004022400800c10200300000000000000020000900004000e84c320100001a400500084450203a000710050005005040032147f0000000001030004022d01013e3a37375f3403a0,
  0x1010101010101010101010101010100000000000000000000000000000000000000000000000000000100010001000100010000000000000000000000000000000000000000000000000000000000000000000000000000000000000000000000000000000000000000000000000000000000000000000000000000000000ff00000000000000000000000000000000000003a1,
  0x1010101010101010101010101010100000000000000000000000000000000000000000000000000000100010001000100010000000000000000000000000000000000000000000000000000000000000000000000000000000000000000000000000000000000000000000000000000000000000000000000000000000000ff00000000000000000000000000000000000003a2,
  0xce00000011000001960049000001960000005f000000000000000004030302020403030505010101010103030304040202000200020000000032500032003200000000001e001900130010000e000000000000000000660000000000000000006700000000000025a2480001888f500c85000000400000000e010210401004088493b60f00103c044200ba420203a3008b0077007707070532147f0000000000000200022d0f0b4b7d2d55695f03a3,
  0xab00002102000002c40105000002c4000001050000000000000000050404020205040405050101010101040404050503020003000200000000375f003c003c00000000001e001900130010000e00000000000000000068000000000000000000690000000080081c090480401a8d10a7e700000000000000064002b000080119c78be1a32b015400640095460203a40045001f008201010032147f0000010200000020024b070950322d6e503c03a4,
  0x20080000000bc0316000000bc0000031600000000000000000504040202050404050501010101010203040505030200030002000000002d500032003200000000001e001900130010000e000000fb00000000006d0000000000000000006e000000001c0040000450083a0c508304000000000000000202001480060000c683b1030000a0012c00ac470203a500e40100001a0b0b0032147f0000037300000020023c110346553c785a4103a5,
  0xb0000000004200000023d00db0000023d0000005d0000000000000000040403020204040305050101010101040405050502010002000200000000325a003c002800000000001e001900130010000e0001016d00010001007a0000000000000000007a00000000100e20330002416e6e104b6200000000000000040a0011c1ba080a8eabaf4b130238008c00a1480203a6007300fb004808080032197f0000000000000080022d0d0e5a5a6441413203a6,
  0xca0000000006000000000000000000000000000000000000000000000002020202020505050505010101010100000000000000000000000000000000000000000000000000000a000a000a000a000a000000000000000100900000000000000000009000000000020c0004000205060e101800000000000000000080001060310011804726034001fd00aa0122460203a700ac00ac00ac0f0f052378ff00000000000003000303020d647d5f55555a03a7,
  0xcb0000000002400000000000000000000000000000000000000000000002020202020505050505010101010100000000000000000000000000000000000000000000000000000a000a000a000a000a00000000000000010091000000000000000000910000000082000004002102a00c30308000000000000000040000d80007100d8047230342024600a00122420203a80080008000800f0f052378ff000000000000000c030302015a55645a7d5a03a8,
  0xcc0000000082000000000000000000000000000000000000000000000002020202020505050505010101010100000000000000000000000000000000000000000000000000000a000a000a000a000a00000000000000010092000000000000000000920000000002020014040004220c1010000000000000000000802030000700118047280340029400c80122400203a900c900c900c90f0f052378ff0000000000000c00030302107d645a5a555a03a9,
  0x3000004000000033a01190000033a00000119000000000000000005040402020504040505010101010104040405050202000200020000000037550037003700000000001e001900130010000e0001000000010001004f000000000000000000c70000000408166031800261468e5a8c7e0000000000000000080a34c188a0799e8b2ac317031b00b400ac490203aa00900014010502010032147f000000000000080002460d036e6e1e50415f03aa,
  0x1010101010101010101010101010100000000000000000000000000000000000000000000000000000100010001000100010000000000000000000000000000000000000000000000000000000000000000000000000000000000000000000000000000000000000000000000000000000000000000000000000000000000ff00000000000000000000000000000000000003ab,
  0x1010101010101010101010101010100000000000000000000000000000000000000000000000000000100010001000100010000000000000000000000000000000000000000000000000000000000000000000000000000000000000000000000000000000000000000000000000000000000000000000000000000000000ff00000000000000000000000000000000000003ac,
  0x1010101010101010101010101010100000000000000000000000000000000000000000000000000000100010001000100010000000000000000000000000000000000000000000000000000000000000000000000000000000000000000000000000000000000000000000000000000000000000000000000000000000000ff00000000000000000000000000000000000003ad,
  0x1010101010101010101010101010100000000000000000000000000000000000000000000000000000100010001000100010000000000000000000000000000000000000000000000000000000000000000000000000000000000000000000000000000000000000000000000000000000000000000000000000000000000ff00000000000000000000000000000000000003ae,
  0x1010101010101010101010101010100000000000000000000000000000000000000000000000000000100010001000100010000000000000000000000000000000000000000000000000000000000000000000000000000000000000000000000000000000000000000000000000000000000000000000000000000000000ff00000000000000000000000000000000000003af,
  0x1010101010101010101010101010100000000000000000000000000000000000000000000000000000100010001000100010000000000000000000000000000000000000000000000000000000000000000000000000000000000000000000000000000000000000000000000000000000000000000000000000000000000ff00000000000000000000000000000000000003b0,
  0x1010101010101010101010101010100000000000000000000000000000000000000000000000000000100010001000100010000000000000000000000000000000000000000000000000000000000000000000000000000000000000000000000000000000000000000000000000000000000000000000000000000000000ff00000000000000000000000000000000000003b1,
  0x1010101010101010101010101010100000000000000000000000000000000000000000000000000000100010001000100010000000000000000000000000000000000000000000000000000000000000000000000000000000000000000000000000000000000000000000000000000000000000000000000000000000000ff00000000000000000000000000000000000003b2,
  0x1010101010101010101010101010100000000000000000000000000000000000000000000000000000100010001000100010000000000000000000000000000000000000000000000000000000000000000000000000000000000000000000000000000000000000000000000000000000000000000000000000000000000ff00000000000000000000000000000000000003b3,
  0x1010101010101010101010101010100000000000000000000000000000000000000000000000000000100010001000100010000000000000000000000000000000000000000000000000000000000000000000000000000000000000000000000000000000000000000000000000000000000000000000000000000000000ff00000000000000000000000000000000000003b4,
  0x1010101010101010101010101010100000000000000000000000000000000000000000000000000000100010001000100010000000000000000000000000000000000000000000000000000000000000000000000000000000000000000000000000000000000000000000000000000000000000000000000000000000000ff00000000000000000000000000000000000003b5,
  0x1010101010101010101010101010100000000000000000000000000000000000000000000000000000100010001000100010000000000000000000000000000000000000000000000000000000000000000000000000000000000000000000000000000000000000000000000000000000000000000000000000000000000ff00000000000000000000000000000000000003b6,
  0x1010101010101010101010101010100000000000000000000000000000000000000000000000000000100010001000100010000000000000000000000000000000000000000000000000000000000000000000000000000000000000000000000000000000000000000000000000000000000000000000000000000000000ff00000000000000000000000000000000000003b7,
  0x1010101010101010101010101010100000000000000000000000000000000000000000000000000000100010001000100010000000000000000000000000000000000000000000000000000000000000000000000000000000000000000000000000000000000000000000000000000000000000000000000000000000000ff00000000000000000000000000000000000003b8,
  0x1010101010101010101010101010100000000000000000000000000000000000000000000000000000100010001000100010000000000000000000000000000000000000000000000000000000000000000000000000000000000000000000000000000000000000000000000000000000000000000000000000000000000ff00000000000000000000000000000000000003b9,
  0x1010101010101010101010101010100000000000000000000000000000000000000000000000000000100010001000100010000000000000000000000000000000000000000000000000000000000000000000000000000000000000000000000000000000000000000000000000000000000000000000000000000000000ff00000000000000000000000000000000000003ba,
  0x1010101010101010101010101010100000000000000000000000000000000000000000000000000000100010001000100010000000000000000000000000000000000000000000000000000000000000000000000000000000000000000000000000000000000000000000000000000000000000000000000000000000000ff00000000000000000000000000000000000003bb,
  0x1010101010101010101010101010100000000000000000000000000000000000000000000000000000100010001000100010000000000000000000000000000000000000000000000000000000000000000000000000000000000000000000000000000000000000000000000000000000000000000000000000000000000ff00000000000000000000000000000000000003bc,
  0x1010101010101010101010101010100000000000000000000000000000000000000000000000000000100010001000100010000000000000000000000000000000000000000000000000000000000000000000000000000000000000000000000000000000000000000000000000000000000000000000000000000000000ff00000000000000000000000000000000000003bd,
  0x1010101010101010101010101010100000000000000000000000000000000000000000000000000000100010001000100010000000000000000000000000000000000000000000000000000000000000000000000000000000000000000000000000000000000000000000000000000000000000000000000000000000000ff00000000000000000000000000000000000003be,
  0x1010101010101010101010101010100000000000000000000000000000000000000000000000000000100010001000100010000000000000000000000000000000000000000000000000000000000000000000000000000000000000000000000000000000000000000000000000000000000000000000000000000000000ff00000000000000000000000000000000000003bf,
  0x1010101010101010101010101010100000000000000000000000000000000000000000000000000000100010001000100010000000000000000000000000000000000000000000000000000000000000000000000000000000000000000000000000000000000000000000000000000000000000000000000000000000000ff00000000000000000000000000000000000003c0,
  0x1010101010101010101010101010100000000000000000000000000000000000000000000000000000100010001000100010000000000000000000000000000000000000000000000000000000000000000000000000000000000000000000000000000000000000000000000000000000000000000000000000000000000ff00000000000000000000000000000000000003c1,
  0x1010101010101010101010101010100000000000000000000000000000000000000000000000000000100010001000100010000000000000000000000000000000000000000000000000000000000000000000000000000000000000000000000000000000000000000000000000000000000000000000000000000000000ff00000000000000000000000000000000000003c2,
  0x1010101010101010101010101010100000000000000000000000000000000000000000000000000000100010001000100010000000000000000000000000000000000000000000000000000000000000000000000000000000000000000000000000000000000000000000000000000000000000000000000000000000000ff00000000000000000000000000000000000003c3,
  0x1010101010101010101010101010100000000000000000000000000000000000000000000000000000100010001000100010000000000000000000000000000000000000000000000000000000000000000000000000000000000000000000000000000000000000000000000000000000000000000000000000000000000ff00000000000000000000000000000000000003c4,
  0x1010101010101010101010101010100000000000000000000000000000000000000000000000000000100010001000100010000000000000000000000000000000000000000000000000000000000000000000000000000000000000000000000000000000000000000000000000000000000000000000000000000000000ff00000000000000000000000000000000000003c5,
  0x1000000001fa00b4000001fa000000b40000000000000000030202020203020205050101010101020303030403020003000200000000325a003c003200000000001e001900130010000e000100ec0001000100de000000000000000000de0000000480101808800240020c120c7a00000000000000040002300000c900df9b7f80000005003c0090480203c60082008500850902043214bf0000000000000400023c070764411e64373c03c6,
  0x470000000080000000022b002b0000022b0000007a00000000000000000303030202030303050501010101010303030404020200020002000000002d55003c002d00000000001e001900130010000e0001001f000100010107000000000000000001070000000000202200080004628c1003720000000000000000002090000e2083968fa1c08000af00280038480203c7005f00520035050500320f7f000000000000004001ff0010291e3c291e2603c7,
  0x480000000080000000019001d4000001900000019000000000000000000303030202030303050501010101010202030303020200020002000000002855003c003200000000001e001900130010000e00010020000100010107000000000000000001080000000880202200080004628c1003720000000000000004002090020e2083968fa1c380014500320093480203c8005f00520035050500320f7f0000000000000080025a00103d32643d464e03c8,
  0x1010101010101010101010101010100000000000000000000000000000000000000000000000000000100010001000100010000000000000000000000000000000000000000000000000000000000000000000000000000000000000000000000000000000000000000000000000000000000000000000000000000000000ff00000000000000000000000000000000000003c9,
  0x1010101010101010101010101010100000000000000000000000000000000000000000000000000000100010001000100010000000000000000000000000000000000000000000000000000000000000000000000000000000000000000000000000000000000000000000000000000000000000000000000000000000000ff00000000000000000000000000000000000003ca,
  0x1010101010101010101010101010100000000000000000000000000000000000000000000000000000100010001000100010000000000000000000000000000000000000000000000000000000000000000000000000000000000000000000000000000000000000000000000000000000000000000000000000000000000ff00000000000000000000000000000000000003cb,
  0x1010101010101010101010101010100000000000000000000000000000000000000000000000000000100010001000100010000000000000000000000000000000000000000000000000000000000000000000000000000000000000000000000000000000000000000000000000000000000000000000000000000000000ff00000000000000000000000000000000000003cc,
  0x1010101010101010101010101010100000000000000000000000000000000000000000000000000000100010001000100010000000000000000000000000000000000000000000000000000000000000000000000000000000000000000000000000000000000000000000000000000000000000000000000000000000000ff00000000000000000000000000000000000003cd,
  0x1010101010101010101010101010100000000000000000000000000000000000000000000000000000100010001000100010000000000000000000000000000000000000000000000000000000000000000000000000000000000000000000000000000000000000000000000000000000000000000000000000000000000ff00000000000000000000000000000000000003ce,
  0x1010101010101010101010101010100000000000000000000000000000000000000000000000000000100010001000100010000000000000000000000000000000000000000000000000000000000000000000000000000000000000000000000000000000000000000000000000000000000000000000000000000000000ff00000000000000000000000000000000000003cf,
  0x1010101010101010101010101010100000000000000000000000000000000000000000000000000000100010001000100010000000000000000000000000000000000000000000000000000000000000000000000000000000000000000000000000000000000000000000000000000000000000000000000000000000000ff00000000000000000000000000000000000003d0,
  0x1010101010101010101010101010100000000000000000000000000000000000000000000000000000100010001000100010000000000000000000000000000000000000000000000000000000000000000000000000000000000000000000000000000000000000000000000000000000000000000000000000000000000ff00000000000000000000000000000000000003d1,
  0x1010101010101010101010101010100000000000000000000000000000000000000000000000000000100010001000100010000000000000000000000000000000000000000000000000000000000000000000000000000000000000000000000000000000000000000000000000000000000000000000000000000000000ff00000000000000000000000000000000000003d2,
  0x1010101010101010101010101010100000000000000000000000000000000000000000000000000000100010001000100010000000000000000000000000000000000000000000000000000000000000000000000000000000000000000000000000000000000000000000000000000000000000000000000000000000000ff00000000000000000000000000000000000003d3,
  0x1010101010101010101010101010100000000000000000000000000000000000000000000000000000100010001000100010000000000000000000000000000000000000000000000000000000000000000000000000000000000000000000000000000000000000000000000000000000000000000000000000000000000ff00000000000000000000000000000000000003d4,
  0x1010101010101010101010101010100000000000000000000000000000000000000000000000000000100010001000100010000000000000000000000000000000000000000000000000000000000000000000000000000000000000000000000000000000000000000000000000000000000000000000000000000000000ff00000000000000000000000000000000000003d5,
  0x10000000500184000000500000005000000000000000000404030202040403050501010101010303030404020300020002000000003264003c002d00000000001e001900130010000e000000810000000001a4000000000000000001a50000000114002002080000000c1000010000000000000000018010000004428493281f00005d0032009e490203d6007a007a007a07060032147f000000ef00000200024b0b0b4e5755463c4603d6,
  0x8000000014a00fa0000014a000000220000000000000000030303020203030305050101010101040404040402020002000200000000325a003c002800000000001e001900130010000e000000e60000000101a6000000000000000001a60000000000100008000020000c12007a00000000000000000000100000a0209a8b200000003f001e0041410203d7009f0072003c0b020032147f000000000000000101be0a0a3e392230304c03d7,
  0x8000000014a019e0000014a0000014a00000000000000000504040202050404050501010101010203030303030200030002000000002d50003c003200000000001e001900130010000e000000e70000000101a6000000000000000001a70000000000104808000020000c53047a00000000000000040002100000a3609b8b608300012b005a00a6410203d8009f0072003c0b020032147f0000000000000002024b040a525c2744536f03d8,
  0x20080000013b01b30000013b0000013b00000000000000000403030202040303050502010101010503030303030300030002000000003255003c002800000000001e001900130010000e000001740000000001df000000000000000001df00000000000f00100400044a0c100300000000000000000024053000000003c603a640000003001e00b6400603d9001a001a001a0b0b003214ff0000000000000140022d090c6b69566b413203d9,
  0x20080000003801b3000000380000003800000000000000000403030202040303050502010101010503030303030300030002000000002d55003c002300000000001e001900130010000e000001740000000001df000000000000000001df00000000000f00100400044a0c100300000000000000000024053000000003c603a640000003001e00b6400603d9001a001a001a0b0b003214ff0000000000000140022d0a0c6b69566b413203da,
  0x20080000003b01b30000003b0000003b00000000000000000403030202040303050502010101010503030303030300030002000000003255003c002300000000001e001900130010000e000001740000000001df000000000000000001df00000000000f00100400044a0c100300000000000000000024053000000003c603a640000003001e00b6400603d9001a001a001a0b0b003214ff0000000000000140022d0e0c6b69566b413203db,
  0x20080000019301b3000001930000019300000000000000000403030202040303050502010101010503030303030300030003000000003755003c003200000000001e001900130010000e000001740000000001df000000000000000001df00000000000f00100400044a0c100300000000000000000024053000000003c603a640000003001e00b6400603d9001a001a001a0b0b003214ff0000000000000140022d020c6b69566b413203dc,
  0x2008000001b501b3000001b5000001b500000000000000000403030202040303050502010101010503030303030300030002000000003255003c002800000000001e001900130010000e000001740000000001df000000000000000001df00000000000f00100400044a0c100300000000000000000024053000000003c603a640000003001e00b6400603d9001a001a001a0b0b003214ff0000000000000140022d0b0c6b69566b413203dd,
  0x220000000000000000000000000001a5000000000000000002020502020505050505010101010100000300000000000000030000000000000000002800000000000a000a0013000a000a000000000000000101e7000000000000000001e70000000000000c0a450284028d100f02000000400000000a00423002020001c64f284340196402b20154440203de001a001a001a0f0f050078ff000000000000000303030f0764785a64789603de,
  0x1010101010101010101010101010100000000000000000000000000000000000000000000000000000100010001000100010000000000000000000000000000000000000000000000000000000000000000000000000000000000000000000000000000000000000000000000000000000000000000000000000000000000ff00000000000000000000000000000000000003df,
  0x1010101010101010101010101010100000000000000000000000000000000000000000000000000000100010001000100010000000000000000000000000000000000000000000000000000000000000000000000000000000000000000000000000000000000000000000000000000000000000000000000000000000000ff00000000000000000000000000000000000003e0,
  0x1010101010101010101010101010100000000000000000000000000000000000000000000000000000100010001000100010000000000000000000000000000000000000000000000000000000000000000000000000000000000000000000000000000000000000000000000000000000000000000000000000000000000ff00000000000000000000000000000000000003e1,
  0x1010101010101010101010101010100000000000000000000000000000000000000000000000000000100010001000100010000000000000000000000000000000000000000000000000000000000000000000000000000000000000000000000000000000000000000000000000000000000000000000000000000000000ff00000000000000000000000000000000000003e2,
  0x1010101010101010101010101010100000000000000000000000000000000000000000000000000000100010001000100010000000000000000000000000000000000000000000000000000000000000000000000000000000000000000000000000000000000000000000000000000000000000000000000000000000000ff00000000000000000000000000000000000003e3,
  0x1010101010101010101010101010100000000000000000000000000000000000000000000000000000100010001000100010000000000000000000000000000000000000000000000000000000000000000000000000000000000000000000000000000000000000000000000000000000000000000000000000000000000ff00000000000000000000000000000000000003e4,
  0x1010101010101010101010101010100000000000000000000000000000000000000000000000000000100010001000100010000000000000000000000000000000000000000000000000000000000000000000000000000000000000000000000000000000000000000000000000000000000000000000000000000000000ff00000000000000000000000000000000000003e5,
  0x1010101010101010101010101010100000000000000000000000000000000000000000000000000000100010001000100010000000000000000000000000000000000000000000000000000000000000000000000000000000000000000000000000000000000000000000000000000000000000000000000000000000000ff00000000000000000000000000000000000003e6,
  0x1010101010101010101010101010100000000000000000000000000000000000000000000000000000100010001000100010000000000000000000000000000000000000000000000000000000000000000000000000000000000000000000000000000000000000000000000000000000000000000000000000000000000ff00000000000000000000000000000000000003e7],
  [0x1010101010101010101010101010100000000000000000000000000000000000000000000000000000100010001000100010000000000000000000000000000000000000000000000000000000000000000000000000000000000000000000000000000000000000000000000000000000000000000000000000000000000ff00000000000000000000000000000000000003e8,
  0x1010101010101010101010101010100000000000000000000000000000000000000000000000000000100010001000100010000000000000000000000000000000000000000000000000000000000000000000000000000000000000000000000000000000000000000000000000000000000000000000000000000000000ff00000000000000000000000000000000000003e9,
  0x1010101010101010101010101010100000000000000000000000000000000000000000000000000000100010001000100010000000000000000000000000000000000000000000000000000000000000000000000000000000000000000000000000000000000000000000000000000000000000000000000000000000000ff00000000000000000000000000000000000003ea,
  0x1010101010101010101010101010100000000000000000000000000000000000000000000000000000100010001000100010000000000000000000000000000000000000000000000000000000000000000000000000000000000000000000000000000000000000000000000000000000000000000000000000000000000ff00000000000000000000000000000000000003eb,
  0x1010101010101010101010101010100000000000000000000000000000000000000000000000000000100010001000100010000000000000000000000000000000000000000000000000000000000000000000000000000000000000000000000000000000000000000000000000000000000000000000000000000000000ff00000000000000000000000000000000000003ec,
  0x1010101010101010101010101010100000000000000000000000000000000000000000000000000000100010001000100010000000000000000000000000000000000000000000000000000000000000000000000000000000000000000000000000000000000000000000000000000000000000000000000000000000000ff00000000000000000000000000000000000003ed,
  0x1010101010101010101010101010100000000000000000000000000000000000000000000000000000100010001000100010000000000000000000000000000000000000000000000000000000000000000000000000000000000000000000000000000000000000000000000000000000000000000000000000000000000ff00000000000000000000000000000000000003ee,
  0x1010101010101010101010101010100000000000000000000000000000000000000000000000000000100010001000100010000000000000000000000000000000000000000000000000000000000000000000000000000000000000000000000000000000000000000000000000000000000000000000000000000000000ff00000000000000000000000000000000000003ef,
  0x1010101010101010101010101010100000000000000000000000000000000000000000000000000000100010001000100010000000000000000000000000000000000000000000000000000000000000000000000000000000000000000000000000000000000000000000000000000000000000000000000000000000000ff00000000000000000000000000000000000003f0,
  0x40000000004004000002c60039000002c6000002c6000000000000000005040302020504030505020101010102020304040302000300020000000028500032002800000000001e001900130010000e0000009a000000010226000000000000000002260000000600100020000020a90c31103800000000000000000000100804b0259a8f20000000b4006400a1430203f10068005b00450c0c0032287f000000000000008002190a0a375062415c4603f1,
  0x6700000000000000000008020e00000008000000fd00000000000000000303030202030303050501010101010404040405030200030001000000003255003c002800000000001e001900130010000e0001016f00010001022a0000000000000000022a0000000000202020009008b84c10a064000000000000000000001019090108c483e0a81b01900046003f480203f200270037003705050332147f000000000000000401780e0e2d0f322d5a4603f2,
  0x68000000008402000001a8020e000001a8000001a800000000000000000303030202030303050501010101010303040404030300030002000000003255003c003200000000001e001900130010000e0000017000000001022a0000000000000000022b0000000800202c21009148fc4c30ac060000000000000000100210103b0108c483e0ab0b03a1008200bd410403f300a1007d007d05050332147f0000000000000200023c0d09698c37691e6903f3,
  0x68000000008002000001a301a7000001a3000001a700000000000000000303030202030303050501010101010303040404020300020002000000003255003c003200000000001e001900130010000e0001017000010001022a0000000000000000022b0000000800202c21009148b84c30ac660000000000000000000210190b0108c483e0ab1b04b000aa00a8480403f300a100ff00ff05050332147f0000000000000008023c0e0e371e5f378c6903f4,
  0x68000000008002000001a301a7000001a3000001a700000000000000000303030202030303050501010101010303040404020300020002000000003255003c003200000000001e001900130010000e0001017000010001022a0000000000000000022b0000000800202c21009148b84c30ac660000000000000000000210190b0108c483e0ab1b04b000aa00bd480403f300a100ff00ff05050332147f0000000000000200023c090e371e8737a06903f5,
  0x2000000002b50065000002b5000002b500000000000000000303030202030303050501010101010404040405030200030001000000003250003c002800000000001e001900130010000e0001014700010001023200000000000000000232000000000008003a044241420c100c000000000000000002000030c0020190c383e80000000f0032003d440203f600fe00fe00fe0b0a0032197f000000000000001001be0704411e1e55372603f6,
  0x1010101010101010101010101010100000000000000000000000000000000000000000000000000000100010001000100010000000000000000000000000000000000000000000000000000000000000000000000000000000000000000000000000000000000000000000000000000000000000000000000000000000000ff00000000000000000000000000000000000003f7,
  0x1010101010101010101010101010100000000000000000000000000000000000000000000000000000100010001000100010000000000000000000000000000000000000000000000000000000000000000000000000000000000000000000000000000000000000000000000000000000000000000000000000000000000ff00000000000000000000000000000000000003f8,
  0x1010101010101010101010101010100000000000000000000000000000000000000000000000000000100010001000100010000000000000000000000000000000000000000000000000000000000000000000000000000000000000000000000000000000000000000000000000000000000000000000000000000000000ff00000000000000000000000000000000000003f9,
  0x1010101010101010101010101010100000000000000000000000000000000000000000000000000000100010001000100010000000000000000000000000000000000000000000000000000000000000000000000000000000000000000000000000000000000000000000000000000000000000000000000000000000000ff00000000000000000000000000000000000003fa,
  0x1010101010101010101010101010100000000000000000000000000000000000000000000000000000100010001000100010000000000000000000000000000000000000000000000000000000000000000000000000000000000000000000000000000000000000000000000000000000000000000000000000000000000ff00000000000000000000000000000000000003fb,
  0x1010101010101010101010101010100000000000000000000000000000000000000000000000000000100010001000100010000000000000000000000000000000000000000000000000000000000000000000000000000000000000000000000000000000000000000000000000000000000000000000000000000000000ff00000000000000000000000000000000000003fc,
  0x800100000117030b000001170000030b0000000000000000040303020204030305050101010101030304040402020002000100000000375a003c003200000000001e001900130010000e000000e200000001026a0000000000000000026a0000000000125848000060090c500410000000800000000400021008023104838361c00000cd004600a5430203fd00fa00fa00fa0b020032147f0000000000000002024b080454422063516d03fd,
  0x8000000000000000000000000000013a000000000000000002020502020505050505010101010100000300000000000000020000000000000000002800000000000a000a0013000a000a00000000000000010281000000000000000002810000000002026011040100b98c5018020000000000000002800050000f004c828fa003400276008c0122430203fe0090009000900f0f055a780000000000000000c0030302025a6e7950644f03fe,
  0x800800000000000000000000000001b3000000000000000002020502020505050505010101010100000300000000000000010000000000000000002800000000000a000a0013000a000a00000000000000010282000000000000000002820000000000436051040100a98c501b020000000000000003200510000f004c8287a043600262012c0122410203ff000a000a000a0f0f055a780000000000000003000303020c50916546694f03ff,
  0x59000000000000000002020502020505050505010101010100000300000000000000010000000000000000002800000000000a000a0013000a000a00000000000000010285000000000000000002850000000000007809000300808d500c030000000000000002000210000b2358818770834002a80082012c450204000016001600160f0f055a7800000000000000000c0303020450695b5a91590400,
  0x42000000022e02250000022e0000022500000000000000000605050202060505050501010101010102030202030300030002000000003c64003c002800000000001e001900130010000e00000000000000000286000000000000000002860000000800000c69400884020d100860000000400000000a000010020a09538e4f6e03400cb20168015e4703040100a300a300a30f0f050078ff000000000000030003030e0f64aa5f5a787d0401,
  0x42000000022f02250000022f0000022500000000000000000605050202060505050501010101010102030202030300030002000000003c64003c002800000000001e001900130010000e00000000000000000286000000000000000002860000000800000c69400884020d100860000000400000000a000010020a09538e4f6e03400cb2014a015e4703040100a400a400a40f0f050078ff000000000000000c03030e0f5a785f64aa7d0402,
  0x4400000038019b000000380000003800000000000000000505050202050505050501010101010102020202030300030003000000003755003c003200000000001e001900130010000e00000000000000000287000000000000000002870000000400300801132220a01c3000990000000000000001c000900000100f8e0b2c030001e5008c012242020403009a009a009a0f0f052350ff00000000000003000303010a5a816c5a485b0403,
  0x1010101010101010101010101010100000000000000000000000000000000000000000000000000000100010001000100010000000000000000000000000000000000000000000000000000000000000000000000000000000000000000000000000000000000000000000000000000000000000000000000000000000000ff0000000000000000000000000000000000000404,
  0x2020202020505050505010101010100000000000000000000000000000000000000000000000000000a000a000a000a000a00000000000000000289000000000000000002890000000000080662340042000c1c0b640000008000000000000410020500018013374b4003390096012c460504050058005800580f0f050078ff0000000000000144030308065f78635f78470405,
  0x2020202020505050505010101010100000000000000000000000000000000000000000000000000000a000a000a000a000a00000000000000000289000000000000000002890000000000080662340042000c1c0b640000008000000000000410020500018013374b4003390096012c460504050058005800580f0f050078ff0000000000000144030308065f78635f78470406,
  0x2020202020505050505010101010100000000000000000000000000000000000000000000000000000a000a000a000a000a00000000000000000289000000000000000002890000000000080662340042000c1c0b640000008000000000000410020500018013374b4003390096012c460504050058005800580f0f050078ff0000000000000144030308065f78635f78470407,
  0x2020202020505050505010101010100000000000000000000000000000000000000000000000000000a000a000a000a000a00000000000000000289000000000000000002890000000000080662340042000c1c0b640000008000000000000410020500018013374b4003390096012c460504050058005800580f0f050078ff0000000000000144030308065f78635f78470408,
  0x1010101010101010101010101010100000000000000000000000000000000000000000000000000000100010001000100010000000000000000000000000000000000000000000000000000000000000000000000000000000000000000000000000000000000000000000000000000000000000000000000000000000000ff0000000000000000000000000000000000000409,
  0x1010101010101010101010101010100000000000000000000000000000000000000000000000000000100010001000100010000000000000000000000000000000000000000000000000000000000000000000000000000000000000000000000000000000000000000000000000000000000000000000000000000000000ff000000000000000000000000000000000000040a,
  0x1010101010101010101010101010100000000000000000000000000000000000000000000000000000100010001000100010000000000000000000000000000000000000000000000000000000000000000000000000000000000000000000000000000000000000000000000000000000000000000000000000000000000ff000000000000000000000000000000000000040b,
  0x1010101010101010101010101010100000000000000000000000000000000000000000000000000000100010001000100010000000000000000000000000000000000000000000000000000000000000000000000000000000000000000000000000000000000000000000000000000000000000000000000000000000000ff000000000000000000000000000000000000040c,
  0x1010101010101010101010101010100000000000000000000000000000000000000000000000000000100010001000100010000000000000000000000000000000000000000000000000000000000000000000000000000000000000000000000000000000000000000000000000000000000000000000000000000000000ff000000000000000000000000000000000000040d,
  0x1010101010101010101010101010100000000000000000000000000000000000000000000000000000100010001000100010000000000000000000000000000000000000000000000000000000000000000000000000000000000000000000000000000000000000000000000000000000000000000000000000000000000ff000000000000000000000000000000000000040e,
  0x1010101010101010101010101010100000000000000000000000000000000000000000000000000000100010001000100010000000000000000000000000000000000000000000000000000000000000000000000000000000000000000000000000000000000000000000000000000000000000000000000000000000000ff000000000000000000000000000000000000040f,
  0x1010101010101010101010101010100000000000000000000000000000000000000000000000000000100010001000100010000000000000000000000000000000000000000000000000000000000000000000000000000000000000000000000000000000000000000000000000000000000000000000000000000000000ff0000000000000000000000000000000000000410,
  0x1010101010101010101010101010100000000000000000000000000000000000000000000000000000100010001000100010000000000000000000000000000000000000000000000000000000000000000000000000000000000000000000000000000000000000000000000000000000000000000000000000000000000ff0000000000000000000000000000000000000411,
  0x1010101010101010101010101010100000000000000000000000000000000000000000000000000000100010001000100010000000000000000000000000000000000000000000000000000000000000000000000000000000000000000000000000000000000000000000000000000000000000000000000000000000000ff0000000000000000000000000000000000000412,
  0x1010101010101010101010101010100000000000000000000000000000000000000000000000000000100010001000100010000000000000000000000000000000000000000000000000000000000000000000000000000000000000000000000000000000000000000000000000000000000000000000000000000000000ff0000000000000000000000000000000000000413,
  0x1010101010101010101010101010100000000000000000000000000000000000000000000000000000100010001000100010000000000000000000000000000000000000000000000000000000000000000000000000000000000000000000000000000000000000000000000000000000000000000000000000000000000ff0000000000000000000000000000000000000414,
  0x1010101010101010101010101010100000000000000000000000000000000000000000000000000000100010001000100010000000000000000000000000000000000000000000000000000000000000000000000000000000000000000000000000000000000000000000000000000000000000000000000000000000000ff0000000000000000000000000000000000000415,
  0x1010101010101010101010101010100000000000000000000000000000000000000000000000000000100010001000100010000000000000000000000000000000000000000000000000000000000000000000000000000000000000000000000000000000000000000000000000000000000000000000000000000000000ff0000000000000000000000000000000000000416,
  0x1010101010101010101010101010100000000000000000000000000000000000000000000000000000100010001000100010000000000000000000000000000000000000000000000000000000000000000000000000000000000000000000000000000000000000000000000000000000000000000000000000000000000ff0000000000000000000000000000000000000417,
  0x1010101010101010101010101010100000000000000000000000000000000000000000000000000000100010001000100010000000000000000000000000000000000000000000000000000000000000000000000000000000000000000000000000000000000000000000000000000000000000000000000000000000000ff0000000000000000000000000000000000000418,
  0x1010101010101010101010101010100000000000000000000000000000000000000000000000000000100010001000100010000000000000000000000000000000000000000000000000000000000000000000000000000000000000000000000000000000000000000000000000000000000000000000000000000000000ff0000000000000000000000000000000000000419,
  0x1010101010101010101010101010100000000000000000000000000000000000000000000000000000100010001000100010000000000000000000000000000000000000000000000000000000000000000000000000000000000000000000000000000000000000000000000000000000000000000000000000000000000ff000000000000000000000000000000000000041a,
  0x1010101010101010101010101010100000000000000000000000000000000000000000000000000000100010001000100010000000000000000000000000000000000000000000000000000000000000000000000000000000000000000000000000000000000000000000000000000000000000000000000000000000000ff000000000000000000000000000000000000041b,
  0x1010101010101010101010101010100000000000000000000000000000000000000000000000000000100010001000100010000000000000000000000000000000000000000000000000000000000000000000000000000000000000000000000000000000000000000000000000000000000000000000000000000000000ff000000000000000000000000000000000000041c,
  0x1010101010101010101010101010100000000000000000000000000000000000000000000000000000100010001000100010000000000000000000000000000000000000000000000000000000000000000000000000000000000000000000000000000000000000000000000000000000000000000000000000000000000ff000000000000000000000000000000000000041d,
  0x1010101010101010101010101010100000000000000000000000000000000000000000000000000000100010001000100010000000000000000000000000000000000000000000000000000000000000000000000000000000000000000000000000000000000000000000000000000000000000000000000000000000000ff000000000000000000000000000000000000041e,
  0x1010101010101010101010101010100000000000000000000000000000000000000000000000000000100010001000100010000000000000000000000000000000000000000000000000000000000000000000000000000000000000000000000000000000000000000000000000000000000000000000000000000000000ff000000000000000000000000000000000000041f,
  0x1010101010101010101010101010100000000000000000000000000000000000000000000000000000100010001000100010000000000000000000000000000000000000000000000000000000000000000000000000000000000000000000000000000000000000000000000000000000000000000000000000000000000ff0000000000000000000000000000000000000420,
  0x1010101010101010101010101010100000000000000000000000000000000000000000000000000000100010001000100010000000000000000000000000000000000000000000000000000000000000000000000000000000000000000000000000000000000000000000000000000000000000000000000000000000000ff0000000000000000000000000000000000000421,
  0x1010101010101010101010101010100000000000000000000000000000000000000000000000000000100010001000100010000000000000000000000000000000000000000000000000000000000000000000000000000000000000000000000000000000000000000000000000000000000000000000000000000000000ff0000000000000000000000000000000000000422,
  0x1010101010101010101010101010100000000000000000000000000000000000000000000000000000100010001000100010000000000000000000000000000000000000000000000000000000000000000000000000000000000000000000000000000000000000000000000000000000000000000000000000000000000ff0000000000000000000000000000000000000423,
  0x1010101010101010101010101010100000000000000000000000000000000000000000000000000000100010001000100010000000000000000000000000000000000000000000000000000000000000000000000000000000000000000000000000000000000000000000000000000000000000000000000000000000000ff0000000000000000000000000000000000000424,
  0x1010101010101010101010101010100000000000000000000000000000000000000000000000000000100010001000100010000000000000000000000000000000000000000000000000000000000000000000000000000000000000000000000000000000000000000000000000000000000000000000000000000000000ff0000000000000000000000000000000000000425,
  0x1010101010101010101010101010100000000000000000000000000000000000000000000000000000100010001000100010000000000000000000000000000000000000000000000000000000000000000000000000000000000000000000000000000000000000000000000000000000000000000000000000000000000ff0000000000000000000000000000000000000426,
  0x1010101010101010101010101010100000000000000000000000000000000000000000000000000000100010001000100010000000000000000000000000000000000000000000000000000000000000000000000000000000000000000000000000000000000000000000000000000000000000000000000000000000000ff0000000000000000000000000000000000000427,
  0x1010101010101010101010101010100000000000000000000000000000000000000000000000000000100010001000100010000000000000000000000000000000000000000000000000000000000000000000000000000000000000000000000000000000000000000000000000000000000000000000000000000000000ff0000000000000000000000000000000000000428,
  0x1010101010101010101010101010100000000000000000000000000000000000000000000000000000100010001000100010000000000000000000000000000000000000000000000000000000000000000000000000000000000000000000000000000000000000000000000000000000000000000000000000000000000ff0000000000000000000000000000000000000429,
  0x1010101010101010101010101010100000000000000000000000000000000000000000000000000000100010001000100010000000000000000000000000000000000000000000000000000000000000000000000000000000000000000000000000000000000000000000000000000000000000000000000000000000000ff000000000000000000000000000000000000042a,
  0x1010101010101010101010101010100000000000000000000000000000000000000000000000000000100010001000100010000000000000000000000000000000000000000000000000000000000000000000000000000000000000000000000000000000000000000000000000000000000000000000000000000000000ff000000000000000000000000000000000000042b,
  0x1010101010101010101010101010100000000000000000000000000000000000000000000000000000100010001000100010000000000000000000000000000000000000000000000000000000000000000000000000000000000000000000000000000000000000000000000000000000000000000000000000000000000ff000000000000000000000000000000000000042c,
  0x1010101010101010101010101010100000000000000000000000000000000000000000000000000000100010001000100010000000000000000000000000000000000000000000000000000000000000000000000000000000000000000000000000000000000000000000000000000000000000000000000000000000000ff000000000000000000000000000000000000042d,
  0x1010101010101010101010101010100000000000000000000000000000000000000000000000000000100010001000100010000000000000000000000000000000000000000000000000000000000000000000000000000000000000000000000000000000000000000000000000000000000000000000000000000000000ff000000000000000000000000000000000000042e,
  0x1010101010101010101010101010100000000000000000000000000000000000000000000000000000100010001000100010000000000000000000000000000000000000000000000000000000000000000000000000000000000000000000000000000000000000000000000000000000000000000000000000000000000ff000000000000000000000000000000000000042f,
  0x1010101010101010101010101010100000000000000000000000000000000000000000000000000000100010001000100010000000000000000000000000000000000000000000000000000000000000000000000000000000000000000000000000000000000000000000000000000000000000000000000000000000000ff0000000000000000000000000000000000000430,
  0x1010101010101010101010101010100000000000000000000000000000000000000000000000000000100010001000100010000000000000000000000000000000000000000000000000000000000000000000000000000000000000000000000000000000000000000000000000000000000000000000000000000000000ff0000000000000000000000000000000000000431,
  0x1010101010101010101010101010100000000000000000000000000000000000000000000000000000100010001000100010000000000000000000000000000000000000000000000000000000000000000000000000000000000000000000000000000000000000000000000000000000000000000000000000000000000ff0000000000000000000000000000000000000432,
  0x1010101010101010101010101010100000000000000000000000000000000000000000000000000000100010001000100010000000000000000000000000000000000000000000000000000000000000000000000000000000000000000000000000000000000000000000000000000000000000000000000000000000000ff0000000000000000000000000000000000000433,
  0x1010101010101010101010101010100000000000000000000000000000000000000000000000000000100010001000100010000000000000000000000000000000000000000000000000000000000000000000000000000000000000000000000000000000000000000000000000000000000000000000000000000000000ff0000000000000000000000000000000000000434,
  0x1010101010101010101010101010100000000000000000000000000000000000000000000000000000100010001000100010000000000000000000000000000000000000000000000000000000000000000000000000000000000000000000000000000000000000000000000000000000000000000000000000000000000ff0000000000000000000000000000000000000435,
  0x1010101010101010101010101010100000000000000000000000000000000000000000000000000000100010001000100010000000000000000000000000000000000000000000000000000000000000000000000000000000000000000000000000000000000000000000000000000000000000000000000000000000000ff0000000000000000000000000000000000000436,
  0x1010101010101010101010101010100000000000000000000000000000000000000000000000000000100010001000100010000000000000000000000000000000000000000000000000000000000000000000000000000000000000000000000000000000000000000000000000000000000000000000000000000000000ff0000000000000000000000000000000000000437,
  0x1010101010101010101010101010100000000000000000000000000000000000000000000000000000100010001000100010000000000000000000000000000000000000000000000000000000000000000000000000000000000000000000000000000000000000000000000000000000000000000000000000000000000ff0000000000000000000000000000000000000438,
  0x1010101010101010101010101010100000000000000000000000000000000000000000000000000000100010001000100010000000000000000000000000000000000000000000000000000000000000000000000000000000000000000000000000000000000000000000000000000000000000000000000000000000000ff0000000000000000000000000000000000000439,
  0x1010101010101010101010101010100000000000000000000000000000000000000000000000000000100010001000100010000000000000000000000000000000000000000000000000000000000000000000000000000000000000000000000000000000000000000000000000000000000000000000000000000000000ff000000000000000000000000000000000000043a,
  0x1010101010101010101010101010100000000000000000000000000000000000000000000000000000100010001000100010000000000000000000000000000000000000000000000000000000000000000000000000000000000000000000000000000000000000000000000000000000000000000000000000000000000ff000000000000000000000000000000000000043b,
  0x1010101010101010101010101010100000000000000000000000000000000000000000000000000000100010001000100010000000000000000000000000000000000000000000000000000000000000000000000000000000000000000000000000000000000000000000000000000000000000000000000000000000000ff000000000000000000000000000000000000043c,
  0x1010101010101010101010101010100000000000000000000000000000000000000000000000000000100010001000100010000000000000000000000000000000000000000000000000000000000000000000000000000000000000000000000000000000000000000000000000000000000000000000000000000000000ff000000000000000000000000000000000000043d,
  0x1010101010101010101010101010100000000000000000000000000000000000000000000000000000100010001000100010000000000000000000000000000000000000000000000000000000000000000000000000000000000000000000000000000000000000000000000000000000000000000000000000000000000ff000000000000000000000000000000000000043e,
  0x1010101010101010101010101010100000000000000000000000000000000000000000000000000000100010001000100010000000000000000000000000000000000000000000000000000000000000000000000000000000000000000000000000000000000000000000000000000000000000000000000000000000000ff000000000000000000000000000000000000043f,
  0x1010101010101010101010101010100000000000000000000000000000000000000000000000000000100010001000100010000000000000000000000000000000000000000000000000000000000000000000000000000000000000000000000000000000000000000000000000000000000000000000000000000000000ff0000000000000000000000000000000000000440,
  0x1010101010101010101010101010100000000000000000000000000000000000000000000000000000100010001000100010000000000000000000000000000000000000000000000000000000000000000000000000000000000000000000000000000000000000000000000000000000000000000000000000000000000ff0000000000000000000000000000000000000441,
  0x1010101010101010101010101010100000000000000000000000000000000000000000000000000000100010001000100010000000000000000000000000000000000000000000000000000000000000000000000000000000000000000000000000000000000000000000000000000000000000000000000000000000000ff0000000000000000000000000000000000000442,
  0x1010101010101010101010101010100000000000000000000000000000000000000000000000000000100010001000100010000000000000000000000000000000000000000000000000000000000000000000000000000000000000000000000000000000000000000000000000000000000000000000000000000000000ff0000000000000000000000000000000000000443,
  0x1010101010101010101010101010100000000000000000000000000000000000000000000000000000100010001000100010000000000000000000000000000000000000000000000000000000000000000000000000000000000000000000000000000000000000000000000000000000000000000000000000000000000ff0000000000000000000000000000000000000444,
  0x1010101010101010101010101010100000000000000000000000000000000000000000000000000000100010001000100010000000000000000000000000000000000000000000000000000000000000000000000000000000000000000000000000000000000000000000000000000000000000000000000000000000000ff0000000000000000000000000000000000000445,
  0x1010101010101010101010101010100000000000000000000000000000000000000000000000000000100010001000100010000000000000000000000000000000000000000000000000000000000000000000000000000000000000000000000000000000000000000000000000000000000000000000000000000000000ff0000000000000000000000000000000000000446,
  0x1010101010101010101010101010100000000000000000000000000000000000000000000000000000100010001000100010000000000000000000000000000000000000000000000000000000000000000000000000000000000000000000000000000000000000000000000000000000000000000000000000000000000ff0000000000000000000000000000000000000447,
  0x1010101010101010101010101010100000000000000000000000000000000000000000000000000000100010001000100010000000000000000000000000000000000000000000000000000000000000000000000000000000000000000000000000000000000000000000000000000000000000000000000000000000000ff0000000000000000000000000000000000000448,
  0x1010101010101010101010101010100000000000000000000000000000000000000000000000000000100010001000100010000000000000000000000000000000000000000000000000000000000000000000000000000000000000000000000000000000000000000000000000000000000000000000000000000000000ff0000000000000000000000000000000000000449,
  0x1010101010101010101010101010100000000000000000000000000000000000000000000000000000100010001000100010000000000000000000000000000000000000000000000000000000000000000000000000000000000000000000000000000000000000000000000000000000000000000000000000000000000ff000000000000000000000000000000000000044a,
  0x1010101010101010101010101010100000000000000000000000000000000000000000000000000000100010001000100010000000000000000000000000000000000000000000000000000000000000000000000000000000000000000000000000000000000000000000000000000000000000000000000000000000000ff000000000000000000000000000000000000044b],
  [0x1010101010101010101010101010100000000000000000000000000000000000000000000000000000100010001000100010000000000000000000000000000000000000000000000000000000000000000000000000000000000000000000000000000000000000000000000000000000000000000000000000000000000ff000000000000000000000000000000000000044c,
  0x1010101010101010101010101010100000000000000000000000000000000000000000000000000000100010001000100010000000000000000000000000000000000000000000000000000000000000000000000000000000000000000000000000000000000000000000000000000000000000000000000000000000000ff000000000000000000000000000000000000044d,
  0x1010101010101010101010101010100000000000000000000000000000000000000000000000000000100010001000100010000000000000000000000000000000000000000000000000000000000000000000000000000000000000000000000000000000000000000000000000000000000000000000000000000000000ff000000000000000000000000000000000000044e,
  0x1010101010101010101010101010100000000000000000000000000000000000000000000000000000100010001000100010000000000000000000000000000000000000000000000000000000000000000000000000000000000000000000000000000000000000000000000000000000000000000000000000000000000ff000000000000000000000000000000000000044f,
  0x1010101010101010101010101010100000000000000000000000000000000000000000000000000000100010001000100010000000000000000000000000000000000000000000000000000000000000000000000000000000000000000000000000000000000000000000000000000000000000000000000000000000000ff0000000000000000000000000000000000000450,
  0x1010101010101010101010101010100000000000000000000000000000000000000000000000000000100010001000100010000000000000000000000000000000000000000000000000000000000000000000000000000000000000000000000000000000000000000000000000000000000000000000000000000000000ff0000000000000000000000000000000000000451,
  0x1010101010101010101010101010100000000000000000000000000000000000000000000000000000100010001000100010000000000000000000000000000000000000000000000000000000000000000000000000000000000000000000000000000000000000000000000000000000000000000000000000000000000ff0000000000000000000000000000000000000452,
  0x1010101010101010101010101010100000000000000000000000000000000000000000000000000000100010001000100010000000000000000000000000000000000000000000000000000000000000000000000000000000000000000000000000000000000000000000000000000000000000000000000000000000000ff0000000000000000000000000000000000000453,
  0x1010101010101010101010101010100000000000000000000000000000000000000000000000000000100010001000100010000000000000000000000000000000000000000000000000000000000000000000000000000000000000000000000000000000000000000000000000000000000000000000000000000000000ff0000000000000000000000000000000000000454,
  0x1010101010101010101010101010100000000000000000000000000000000000000000000000000000100010001000100010000000000000000000000000000000000000000000000000000000000000000000000000000000000000000000000000000000000000000000000000000000000000000000000000000000000ff0000000000000000000000000000000000000455,
  0x1010101010101010101010101010100000000000000000000000000000000000000000000000000000100010001000100010000000000000000000000000000000000000000000000000000000000000000000000000000000000000000000000000000000000000000000000000000000000000000000000000000000000ff0000000000000000000000000000000000000456,
  0x1010101010101010101010101010100000000000000000000000000000000000000000000000000000100010001000100010000000000000000000000000000000000000000000000000000000000000000000000000000000000000000000000000000000000000000000000000000000000000000000000000000000000ff0000000000000000000000000000000000000457,
  0x1010101010101010101010101010100000000000000000000000000000000000000000000000000000100010001000100010000000000000000000000000000000000000000000000000000000000000000000000000000000000000000000000000000000000000000000000000000000000000000000000000000000000ff0000000000000000000000000000000000000458,
  0x1010101010101010101010101010100000000000000000000000000000000000000000000000000000100010001000100010000000000000000000000000000000000000000000000000000000000000000000000000000000000000000000000000000000000000000000000000000000000000000000000000000000000ff0000000000000000000000000000000000000459,
  0x400000000f70146000000f7000001d900000000000000000303030202030303050501010101010202030303030300030002000000003255003c003200000000001e001900130010000e000000d10000000002a5000000000000000002de00000000042c0032040201468e1009000000000000000000081011c002008386a32ec7040055003c00a34802045a00ac009700330505003214fe0000000000000080024b0d0d5153684c304a045a,
  0x190000e000001900000019000000000000000000303030202030303050501010101010303030404030200030003000000003264003c003200000000001e001900130010000e0000014c0000000002a7000000000000000002ea0000000000000440003040020c3000010000008000000002c00090220000088683651300021200aa00fa4502045b00b000b000b00a0a0032147f0000000000000108032d0708328c3c328c3c045b,
  0x2810000001360237000001360000023700000000000000000101010202010101050502020201010608080404030200030001000000003c64003c003200000000001e001900130010000e000000bf0000000102c6000000000000000002df00000000000a20020c1001420c508804000000000000000010003040000410c497ea08000023001e00434504045c000f007700350b0b0032147f000000000000001001780b07372c3846422c045c,
  0x2810000001360237000001360000023700000000000000000404040202040404050501010101010303030303030200030001000000003c64003c003200000000001e001900130010000e000000bf0000000202c6000000000000000002df00000000000a20020c1001420c508804000000000000000010003040000410c497ea0800004b003200434504045c000f007700350b0b0032147f000000000000001001780b07372c2e464236045d,
  0x2810000001360237000001360000023700000000000000000505050202050505050501010101010202020202030200030001000000003c64003c003200000000001e001900130010000e000000bf0000000302c6000000000000000002df00000000000a20020c1001420c508804000000000000000010003040000410c497ea08000096005000434504045c000f007700350b0b0032147f000000ef00ef001001780b07372c2946423b045e,
  0x2810000001360237000001360000023700000000000000000202020202020202050502020201010608080404030200030002000000003c64003c003200000000001e001900130010000e000000c00000000102c6000000000000000002e000000000000a21130c1001420c508804000000000000000210403040000410c497ea0b00005f004600ad4504045f000f007700350b0b0032147f0000000000000020023c0b074b3a637a5537045f,
  0x2810000001360237000001360000023700000000000000000404040202040404050501010101010303030303030200030002000000003c64003c003200000000001e001900130010000e000000c00000000202c6000000000000000002e000000000000a21130c1001420c508804000000000000000210403040000410c497ea0b00008c006e00ad4504045f000f007700350b0b0032147f0000000000000020023c0b074b3a457a5f4b0460,
  0x2810000001360237000001360000023700000000000000000505050202050505050501010101010202020202030200030002000000003c64003c003200000000001e001900130010000e000000c00000000302c6000000000000000002e000000000000a21130c1001420c508804000000000000000210403040000410c497ea0b00018600aa00ad4504045f000f007700350b0b0032147f000000ef00ef0020023c0b074b3a367a64550461,
  0x200010000000000000000000000000249000000000000000002020502020505050505010101010100000300000000000000030000000000000000002800000000000a000a0013000a000a000000000000000002cc000000000000000003000000000014002061002204001f100b020000000000000001028010800000018e036643000866012c01544102046200bb00bb00bb0f0f050078ff0000000000000003032d11116283635f837e0462,
  0x49000000000000000000000000000268000000000000000002020502020505050505010101010100000300000000000000030000000000000000002800000000000a000a0013000a000a000000000000000002ce000000000000000003020000000040006829400804818d300402000000400000000c000290000200098503688300014f007800f34405046300bc00bc00bc0f0f050078ff00000000000000030303040f553d734764360463,
  0x49000000000000000000000000000268000000000000000002020502020505050505010101010100000300000000000000030000000000000000002800000000000a000a0013000a000a000000000000000002ce000000000000000003020000000040006829400804818d300402000000400000000c000290000200098503688300014f007800f34405046300d300d300d30f0f050078ff00000000000000030303040f553d734764360464,
  0x49000000000000000000000000000268000000000000000002020502020505050505010101010100000300000000000000030000000000000000002800000000000a000a0013000a000a000000000000000002ce000000000000000003020000000040006829400804818d300402000000400000000c0002900002000985036883000bea01f4012c4305046300d300d300d30f0f050078ff00000000000000030303040f5f515f79646c0465,
  0x49000000000000000000000000000268000000000000000002020502020505050505010101010100000300000000000000030000000000000000002800000000000a000a0013000a000a000000000000000002ce000000000000000003020000000040006829400804818d300402000000400000000c00029000020009850368830017d401c201624405046300d300d300d30f0f050078ff00000000000000030303040f5f5b557964d80466,
  0x1010101010101010101010101010100000000000000000000000000000000000000000000000000000100010001000100010000000000000000000000000000000000000000000000000000000000000000000000000000000000000000000000000000000000000000000000000000000000000000000000000000000000ff0000000000000000000000000000000000000467,
  0x1010101010101010101010101010100000000000000000000000000000000000000000000000000000100010001000100010000000000000000000000000000000000000000000000000000000000000000000000000000000000000000000000000000000000000000000000000000000000000000000000000000000000ff0000000000000000000000000000000000000468,
  0x1010101010101010101010101010100000000000000000000000000000000000000000000000000000100010001000100010000000000000000000000000000000000000000000000000000000000000000000000000000000000000000000000000000000000000000000000000000000000000000000000000000000000ff0000000000000000000000000000000000000469,
  0x1010101010101010101010101010100000000000000000000000000000000000000000000000000000100010001000100010000000000000000000000000000000000000000000000000000000000000000000000000000000000000000000000000000000000000000000000000000000000000000000000000000000000ff000000000000000000000000000000000000046a,
  0x9d00000000000001bc009d000001bc0000009d00000000000000000403030202040303050501010101010303030404010100010001000000002d550037003700000000001e001900130010000e000000000000000102e80000000000000000033c0000000004001c28000044218c1000010000000000000004002010140001008087600000005c003200384502046b001400140014050500320f7f000000000000000401be0505281e3c28412d046b,
  0x9e00008000000001bc009d000001bc0000009d00000000000000000403030202040303050501010101010303030404020100020001000000002d5500370037000000000019001900130010000e000000000000000002e802d701bc00000000033d0000000284021c28002144298d30000100000000000000040020181402410c818760022b00fa006e00aa4003046c006300480033050500320f7f0000000000000008025a05054b37524b7355046c,
  0x9e00000000000001bc009d000001bc0000009d00000000000000000403030202040303050501010101010303030404030100030001000000002d5500370037000000000019001900130010000e000000000000000102e802d701bc00000000033d0000000204a01c28002144218d302001000000000000000400301014004108818760020000fa005000aa4503046c00b500b500b5050500320f7f0000000000000008025a050541376e41754b046d,
  0x6e0000400400000039018800000039000002cb00000000000000000504030202050403050502010101010603030505020100020002000000002850003c002800000000001e001900130010000e0000009b0000000002ea000000000000000003340000000400100000000020088c11043800000000000000000002100001a022ba832000000312033400d94102046e00d000d000d00c0c04320f7f0000000000000001023c0a0a878c1e828c2d046e,
  0x1000002ce0132000002ce000002ce00000000000000000505040202050504050501010101010303030303020300020002000000003250003c002800000000001e001900130010000e0000017e0000000003040000000000000000035e00000002002004601000c4130d380135000000c1000000008020101e0300118f4f70430003ed00e6011d4712046f00e100e100e10f0f050078ff0000000000000003030301015f5f5f5f5f5f046f,
  0x1000002ce0132000002ce000002ce00000000000000000505040202050504050501010101010303030303020300020002000000003250003c002800000000001e001900130010000e0000017e0000000003040000000000000000035e00000002002004601000c4130d380135000000c1000000008020101e0300118f4f70430003ed00e6011d4712046f00e100e100e10f0f050078ff0000000000000003030302025f5f5f5f5f5f0470,
  0x1000002ce0132000002ce000002ce00000000000000000505040202050504050501010101010303030303020300020002000000003250003c002800000000001e001900130010000e0000017e0000000003040000000000000000035e00000002002004601000c4130d380135000000c1000000008020101e0300118f4f70430003ed00e6011d4712046f00e100e100e10f0f050078ff0000000000000003030303035f5f5f5f5f5f0471,
  0x1000002ce0132000002ce000002ce00000000000000000505040202050504050501010101010303030303020300020002000000003250003c002800000000001e001900130010000e0000017e0000000003040000000000000000035e00000002002004601000c4130d380135000000c1000000008020101e0300118f4f70430003ed00e6011d4712046f00e100e100e10f0f050078ff0000000000000003030304045f5f5f5f5f5f0472,
  0x1000002ce0132000002ce000002ce00000000000000000505040202050504050501010101010303030303020300020002000000003250003c002800000000001e001900130010000e0000017e0000000003040000000000000000035e00000002002004601000c4130d380135000000c1000000008020101e0300118f4f70430003ed00e6011d4712046f00e100e100e10f0f050078ff0000000000000003030305055f5f5f5f5f5f0473,
  0x1000002ce0132000002ce000002ce00000000000000000505040202050504050501010101010303030303020300020002000000003250003c002800000000001e001900130010000e0000017e0000000003040000000000000000035e00000002002004601000c4130d380135000000c1000000008020101e0300118f4f70430003ed00e6011d4712046f00e100e100e10f0f050078ff0000000000000003030306065f5f5f5f5f5f0474,
  0x1000002ce0132000002ce000002ce00000000000000000505040202050504050501010101010303030303020300020002000000003250003c002800000000001e001900130010000e0000017e0000000003040000000000000000035e00000002002004601000c4130d380135000000c1000000008020101e0300118f4f70430003ed00e6011d4712046f00e100e100e10f0f050078ff0000000000000003030307075f5f5f5f5f5f0475,
  0x1000002ce0132000002ce000002ce00000000000000000505040202050504050501010101010303030303020300020002000000003250003c002800000000001e001900130010000e0000017e0000000003040000000000000000035e00000002002004601000c4130d380135000000c1000000008020101e0300118f4f70430003ed00e6011d4712046f00e100e100e10f0f050078ff0000000000000003030308085f5f5f5f5f5f0476,
  0x1000002ce0132000002ce000002ce00000000000000000505040202050504050501010101010303030303020300020002000000003250003c002800000000001e001900130010000e0000017e0000000003040000000000000000035e00000002002004601000c4130d380135000000c1000000008020101e0300118f4f70430003ed00e6011d4712046f00e100e100e10f0f050078ff0000000000000003030309095f5f5f5f5f5f0477,
  0x1000002ce0132000002ce000002ce00000000000000000505040202050504050501010101010303030303020300020002000000003250003c002800000000001e001900130010000e0000017e0000000003040000000000000000035e00000002002004601000c4130d380135000000c1000000008020101e0300118f4f70430003ed00e6011d4712046f00e100e100e10f0f050078ff000000000000000303030a0a5f5f5f5f5f5f0478,
  0x1000002ce0132000002ce000002ce00000000000000000505040202050504050501010101010303030303020300020002000000003250003c002800000000001e001900130010000e0000017e0000000003040000000000000000035e00000002002004601000c4130d380135000000c1000000008020101e0300118f4f70430003ed00e6011d4712046f00e100e100e10f0f050078ff000000000000000303030b0b5f5f5f5f5f5f0479,
  0x1000002ce0132000002ce000002ce00000000000000000505040202050504050501010101010303030303020300020002000000003250003c002800000000001e001900130010000e0000017e0000000003040000000000000000035e00000002002004601000c4130d380135000000c1000000008020101e0300118f4f70430003ed00e6011d4712046f00e100e100e10f0f050078ff000000000000000303030c0c5f5f5f5f5f5f047a,
  0x1000002ce0132000002ce000002ce00000000000000000505040202050504050501010101010303030303020300020002000000003250003c002800000000001e001900130010000e0000017e0000000003040000000000000000035e00000002002004601000c4130d380135000000c1000000008020101e0300118f4f70430003ed00e6011d4712046f00e100e100e10f0f050078ff000000000000000303030d0d5f5f5f5f5f5f047b,
  0x1000002ce0132000002ce000002ce00000000000000000505040202050504050501010101010303030303020300020002000000003250003c002800000000001e001900130010000e0000017e0000000003040000000000000000035e00000002002004601000c4130d380135000000c1000000008020101e0300118f4f70430003ed00e6011d4712046f00e100e100e10f0f050078ff000000000000000303030e0e5f5f5f5f5f5f047c,
  0x1000002ce0132000002ce000002ce00000000000000000505040202050504050501010101010303030303020300020002000000003250003c002800000000001e001900130010000e0000017e0000000003040000000000000000035e00000002002004601000c4130d380135000000c1000000008020101e0300118f4f70430003ed00e6011d4712046f00e100e100e10f0f050078ff000000000000000303030f0f5f5f5f5f5f5f047d,
  0x1000002ce0132000002ce000002ce00000000000000000505040202050504050501010101010303030303020300020002000000003250003c002800000000001e001900130010000e0000017e0000000003040000000000000000035e00000002002004601000c4130d380135000000c1000000008020101e0300118f4f70430003ed00e6011d4712046f00e100e100e10f0f050078ff0000000000000003030310105f5f5f5f5f5f047e,
  0x1000002ce0132000002ce000002ce00000000000000000505040202050504050501010101010303030303020300020002000000003250003c002800000000001e001900130010000e0000017e0000000003040000000000000000035e00000002002004601000c4130d380135000000c1000000008020101e0300118f4f70430003ed00e6011d4712046f00e100e100e10f0f050078ff0000000000000003030311115f5f5f5f5f5f047f,
  0x1010101010101010101010101010100000000000000000000000000000000000000000000000000000100010001000100010000000000000000000000000000000000000000000000000000000000000000000000000000000000000000000000000000000000000000000000000000000000000000000000000000000000ff0000000000000000000000000000000000000480,
  0x1010101010101010101010101010100000000000000000000000000000000000000000000000000000100010001000100010000000000000000000000000000000000000000000000000000000000000000000000000000000000000000000000000000000000000000000000000000000000000000000000000000000000ff0000000000000000000000000000000000000481,
  0x1010101010101010101010101010100000000000000000000000000000000000000000000000000000100010001000100010000000000000000000000000000000000000000000000000000000000000000000000000000000000000000000000000000000000000000000000000000000000000000000000000000000000ff0000000000000000000000000000000000000482,
  0x1010101010101010101010101010100000000000000000000000000000000000000000000000000000100010001000100010000000000000000000000000000000000000000000000000000000000000000000000000000000000000000000000000000000000000000000000000000000000000000000000000000000000ff0000000000000000000000000000000000000483,
  0x1010101010101010101010101010100000000000000000000000000000000000000000000000000000100010001000100010000000000000000000000000000000000000000000000000000000000000000000000000000000000000000000000000000000000000000000000000000000000000000000000000000000000ff0000000000000000000000000000000000000484,
  0x1010101010101010101010101010100000000000000000000000000000000000000000000000000000100010001000100010000000000000000000000000000000000000000000000000000000000000000000000000000000000000000000000000000000000000000000000000000000000000000000000000000000000ff0000000000000000000000000000000000000485,
  0x1010101010101010101010101010100000000000000000000000000000000000000000000000000000100010001000100010000000000000000000000000000000000000000000000000000000000000000000000000000000000000000000000000000000000000000000000000000000000000000000000000000000000ff0000000000000000000000000000000000000486,
  0x1010101010101010101010101010100000000000000000000000000000000000000000000000000000100010001000100010000000000000000000000000000000000000000000000000000000000000000000000000000000000000000000000000000000000000000000000000000000000000000000000000000000000ff0000000000000000000000000000000000000487,
  0x1010101010101010101010101010100000000000000000000000000000000000000000000000000000100010001000100010000000000000000000000000000000000000000000000000000000000000000000000000000000000000000000000000000000000000000000000000000000000000000000000000000000000ff0000000000000000000000000000000000000488,
  0x1010101010101010101010101010100000000000000000000000000000000000000000000000000000100010001000100010000000000000000000000000000000000000000000000000000000000000000000000000000000000000000000000000000000000000000000000000000000000000000000000000000000000ff0000000000000000000000000000000000000489,
  0x1010101010101010101010101010100000000000000000000000000000000000000000000000000000100010001000100010000000000000000000000000000000000000000000000000000000000000000000000000000000000000000000000000000000000000000000000000000000000000000000000000000000000ff000000000000000000000000000000000000048a,
  0x1010101010101010101010101010100000000000000000000000000000000000000000000000000000100010001000100010000000000000000000000000000000000000000000000000000000000000000000000000000000000000000000000000000000000000000000000000000000000000000000000000000000000ff000000000000000000000000000000000000048b,
  0x1010101010101010101010101010100000000000000000000000000000000000000000000000000000100010001000100010000000000000000000000000000000000000000000000000000000000000000000000000000000000000000000000000000000000000000000000000000000000000000000000000000000000ff000000000000000000000000000000000000048c,
  0x2e0000000000020000024701a500000247000001a500000000000000000303020202030302050501010101010304040404030300030002000000002d500032002800000000001e001900130010000e0000012d00000000030a02d602470000000003330000000014200000140100620c140b01000000000000000000c031428a0000e0b3ab43000007001400a74202048d00d100d100d10b0b0032147f0000000000000800022d1107693260505a37048d,
  0x1400000002c902d2000002c9000002c900000000000000000606050202060605050502010101010202030202030300030002000000003c64003c002800000000001e001900130010000e0000000000000000032002d402c900000000036100000002000c1c48d41a54140f100c01000000000000000b000210620841188007e64b0011f8017c01544203048e00e800e800e80f0f050078ff000000000000000c03ff080d6d714d7f9d61048e,
  0x1400000002ca02d2000002ca000002ca00000000000000000606050202060605050502010101010202030202030300030002000000003c64003c002800000000001e001900130010000e0000000000000000032002d502ca00000000036100000002000c1c48d41a54140f100c01000000000000000b000210620841188007e64b000dac01a401544103048e00e800e800e80f0f050078ff000000000000030003ff070d7f9d4d6d7161048f,
  0x300000000000000000000000000000000000000000000000002020202020505050505010101010100000000000000000000000000000000000000000000000000000a000a000a000a000a00000000000000010321000000000000000003720000000010052463011240426418112000000080000000006085104070001a0003364b0003250064012c4002049000dc00dc00dc0f0f050078ff000000000000030003031108738241735f500490,
  0x5d00000200000000390041000000390000003900000000000000000404040202040404050501010101010304040404020200020001000000003255003c003200000000001e001900130010000e0000013500000000034d000000000000000003950000000482100004000000880c32107800000000000000008000100004006092cba0034000b4005000a64103049100f100f100f104020032147f0000000000000800022d0a025f55553755460491,
  0x5d00000200000000390041000000390000003900000000000000000404040202040404050501010101010304040404020200020001000000003255003c003200000000001e001900130010000e0000013500000000034d000000000000000003950000000482100004000000880c32107800000000000000008000100004006092cba0034000b4005000a64103049100f100f100f104020032147f0000000000000800022d0a025f55553755460492,
  0x80000024a005c0000024a0000018e00000000000000000605050202060505050501010101010202030303020200020002000000002855003c003200000000001e001900130010000e000001370000000003500000000000000000039a0000000088454200020004284c5003000000000000000000202130008a0001808721432b019000a000b0460204930065003a00f408080332197f0000000000000200022d030c46724b46624b0493,
  0x84000000002000000000ca01a1000000ca000000f700000000000000000505040202050504050501010101010203040404030200030003000000003c64003c004100000000001e001900130010000e0000014f000000000356000000000000000003cc00000000000e0010040000422e104800000000000000000000403080020010c0132000000002000a003e460204940082008500850b0a003214ff000000000000010001780707364a322d2d280494,
  0x85000000002000000000f701a1000000f7000000f700000000000000000606050202060605050502020101010304020202030300030003000000003c64003c004100000000001e001900130010000e00000150000000000356000000000000000003cd00000000000e0010040000422e104800000000000000000000403080020010c0133603000004001400b2460204950082008500850b0a003214ff0000000000000200023c070772864641413c0495,
  0x200000000025d00970000025d0000009700000000000000000504040202050404050501010101010203040404030200030002000000003255003c003200000000001e001900130010000e000000ba0000000003640000000000000000039d0000000014040002000200004e18480000000000000000001280118088009280b32a0f000005001e00ad4909049600a500af00af0b06003214fe000000000000080002641111796e404b3c410496,
  0x200000000025d00970000025d0000009700000000000000000504040202050404050501010101010203040404030200030002000000003255003c003200000000001e001900130010000e000000ba0000000003640000000000000000039d0000000014040002000200004e18480000000000000000001280118088009280b32a0f000005001e00ad4309049600a500af00af0b06003214fe000000000000080002641111796e404b3c410497,
  0x200000000025d00970000025d0000009700000000000000000504040202050404050501010101010203040404030200030002000000003255003c003200000000001e001900130010000e000000ba0000000003640000000000000000039d0000000014040002000200004e18480000000000000000001280118088009280b32a0f000005001e00ad4109049600a500af00af0b06003214fe000000000000080002641111796e404b3c410498,
  0x200000000025d00970000025d0000009700000000000000000504040202050404050501010101010203040404030200030002000000003255003c003200000000001e001900130010000e000000ba0000000003640000000000000000039d0000000014040002000200004e18480000000000000000001280118088009280b32a0f000005001e00ad4209049600a500af00af0b06003214fe000000000000080002641111796e404b3c410499,
  0x200000000025d00970000025d0000009700000000000000000504040202050404050501010101010203040404030200030002000000003255003c003200000000001e001900130010000e000000ba0000000003640000000000000000039d0000000014040002000200004e18480000000000000000001280118088009280b32a0f000005001e00ad4809049600a500af00af0b06003214fe000000000000080002641111796e404b3c41049a,
  0x200000000025d00970000025d0000009700000000000000000504040202050404050501010101010203040404030200030002000000003255003c003200000000001e001900130010000e000000ba0000000003640000000000000000039d0000000014040002000200004e18480000000000000000001280118088009280b32a0f000005001e00ad4209049600a500af00af0b06003214fe000000000000080002641111796e404b3c41049b,
  0x200000000025d00970000025d0000009700000000000000000504040202050404050501010101010203040404030200030002000000003255003c003200000000001e001900130010000e000000ba0000000003640000000000000000039d0000000014040002000200004e18480000000000000000001280118088009280b32a0f000005001e00ad4509049600a500af00af0b06003214fe000000000000080002641111796e404b3c41049c,
  0x200000000025d00970000025d0000009700000000000000000504040202050404050501010101010203040404030200030002000000003255003c003200000000001e001900130010000e000000ba0000000003640000000000000000039d0000000014040002000200004e18480000000000000000001280118088009280b32a0f000005001e00ad4209049600a500af00af0b06003214fe000000000000080002641111796e404b3c41049d,
  0x5a0000000000000000023d00c40000023d000000c40000000000000000050404020205040405050101010101020303030303030003000200000000375a003c003200000000001e001900130010000e0000017200000000036b000000000000000003cf0000000400000420000040000c331078000000000000000000001001008860988b240010037a008c00a54102049e00f800f800f805020532197f0000000000000020023c0e0e32418246504b049e,
  0xab0000000004010000005e015b0000005e0000015b00000000000000000503030202050303050501010101010303030404030300030002000000002d55003c003200000000001e001900130010000e0000015100000001036c000000000000000003ae00000000140c0022000204462e104800000000000000000018801000a0001380832e04040118005a00a64602049f00e3001c00140606048c28fe0000000000000800021e000d695f55413746049f,
  0x9d0068000080080000030f01030000030f0000030f0000000000000000040303020204030305050201010101040303030402020002000200000000325a003c003200000000001e001900130010000e0000015800000000036d000000000000000003ad00000002004300100c0000290d10130000000000000000040425101c0e048d8087a04020001e001e0099420204a0010201020102060500320a7f000000000000008002b4100c3a46613a5f3a04a0,
  0x2020202020505050505010101010100000000000000000000000000000000000000000000000000000000000000000000000000018e000400000378000000000000000003aa0000000204600401002004018c3030010000008000000002c030903c04001f80072093000dde01180168410204a100ea00ea00ea0f0f050078ff00000000000000c0030a081173509473aa5c04a1,
  0x400000000000000000000000000000000000000000000002020202020505050505010101010100000000000000000000000000000000000000000000000000000000000000000000000000018f000400000379000000000000000003ab0000000214600441002044018c30300000000080000000000030901c32001780072e8b001eaa01220168400204a200eb00eb00eb0f0f050078ff00000000000000c0030a080191508091825c04a2,
  0x100000000000000000000000000000000000000000000000020202020205050505050101010101010101010100000000000000000000000000000000000000000000000000000000000c0000019000040000037a000000000000000003ac0000000008004040424810020c5010040000004000000002100016000600008007270b40000027100233460204a3002e002e002e0f0f050078ff000000000000000303ff0f03fa7d82fa73ff04a3,
  0x65000000400000000000000000000000000000000000000000000002020202020505050505010101010100000000000000000000000000000000000000000000000000000a000a000a000a000a0000000000000000037b000000000000000003d70000000c00300c21032140a00c31208200000000000000004000d80081812f928760823b041a00be0113470204a40104010401040f0f0532781f000000000000000c03030a013c3f6164826404a4,
  0xd3000080100000000000000000000000000000000000000000000002020202020505050505010101010100000000000000000000000000000000000000000000000000000a000a000a000a000a0000000000000001037d000000000000000003dc00000000a00021120c2104a1cc1000820000000000000006012050008f250d8417e09f0302bc00b4012c430204a50066006600660f0f050078ff000000000000000c03030b105f466969786904a5,
  0xd20000000084000000000000000000000000000000000000000000000002020202020505050505010101010100000000000000000000000000000000000000000000000000000a000a000a000a000a00000000000000000382000000000000000003da00000009c00ca0a2082241ed7f185863000000000000000509a211c1762c138c1f2e1f041f9b00f00154480304a6010a010a010a0f0f056478ff000000000000000c03030e0d82553296a56404a6,
  0xd20000000084000000000000000000000000000000000000000000000002020202020505050505010101010100000000000000000000000000000000000000000000000000000a000a000a000a000a00000000000000000382000000000000000003da00000001000e20b20c02016f6e185802000000000000000409e231e0762413c4172e1f04021800f00154440304a6010b010b010b0f0f056478ff00000000000003000303070d64a59650556404a7]]

/-- resources/bin/personal/personal_bdsp, 560 pieces of 68 bytes -/
def personal_bdsp : List Nat := List.flatten [
  [0x400000000000000000000000000000ff0000000000000000000000000000000000000000,
  0x1000100000000000000029262042002301a08802d87200045004600404301000000220041004107010332141f0000000000000100012d030b41412d31312d0001,
  0x1000200000000000000029262042002301a08802d872000820064008e4301000000220041004107010332141f0000000000000500022d030b50503c3f3e3c0002,
  0x10003000000010000000a9266042802301a08822dc73003e800c801074301000000220041004107010332141f0000000000000600032d030b6464505352500003,
  0x4000400000000000000029242840116a21ae4c84106030055003c003e40010000005e004200420e010332141f0000000000000040012d0909323c412b34270004,
  0x4000500000000000000029242840116a21ae4c841060300be006e008e40010000005e004200420e010332141f0000000000000140022d09094150503a403a0005,
  0x400060000000200000002b246840916ae5ae4ca614613038900aa010b40010000005e004200420e010332141f0000000000000300032d0209556d644e544e0006,
  0x700070000000000000006c242020006e11a40c8433245005a0032003f41010000002c0043004302010332141f0000000000000010012d0a0a40322b41302c0007,
  0x700080000000000000006c242020006e11a40c843324500e10064008e41010000002c0043004302010332141f0000000000000410022d0a0a50413a503f3b0008,
  0x70009000000040000000ec646c28806e91a40ca437255035700a0010941010000002c0043004302010332141f0000000000000c00032d0a0a69554e64534f0009,
  0xa000a0000000000000000000000000000000000000000001d001e002743010000003200130013030300320f7f000000000000000101ff060614142d231e2d000a,
  0xa000b000000000000000000000000000000000000000000630046004843010000003d003d003d030300320f7f00000000000000200278060619191e371432000b,
  0xa000c0000000000000001035210282214ba80b02f44000140006e00c648010000006e000e000e030300320f7f000000de00000600032d0206505a46322d3c000c,
  0xd000d00000000000000000000000000000000000000000020001e002745010000003200130013030300320f7f000000000000004001ff03061414321e2328000d,
  0xd000e00000000000000000000000000000000000000000064003c004842010000003d003d003d030300320f7f00000000000000200278030619192332192d000e,
  0xd000f0000000000000003134b042a02243a88c02544000127006400c642010000006100440044030300320f7f000000f500000408032d0306502d4b285a41000f,
  0x100010000000000000000123c2000002047a80800306000012001e0032450100000091004d0033040403320f7f000000000000004001ff0200232338282d280010,
  0x100011000000000000000123c2000002047a8080030600012c006e007a450100000091004d0033040403320f7f000000000000008002780200323247373c3f0011,
  0x100012000000000000000123c2000802047a8080034600018b009600f0450100000091004d0033040403320f7f00000000000000c0032d02004646654b50530012,
  0x130013000000000000000212e2010003003a0aa9c33e000023001e0033460100000037003e0032050500320f7f000000000000004001ff000023194823381e0013,
  0x130014000000000000000292e2050803003a0aa9c37e1000b900460091450100000037003e0032050500320f7f0000000000000080027f00004632613c51370014,
  0x150015000000000000000123c2000002247a80800306000014001e003445010000006100330033040400320f7f000000f40000004001ff02001f1f461e3c280015,
  0x150016000000000000000123c2000802247a8080034600017c0078009b45010000006100330033040400320f7f000000f400000080025a02003d3d64415a410016,
  0x1700170000000000000000824ec00202003b488a470400004500c8003a46010000007f003d00160e050032147f000000000000000401ff03033628372c3c230017,
  0x1700180000000000000000824ec00a02003b488a474400028a015e009d46010000007f003d00160e050032147f0000000000000008025a03034f4150455f3c0018,
  0x68000000ac00190000000000000002c262012043803e03c9c38001003c0028007042010000001f00090009060500320a7f000000ec0000008002be0c0c32325a2837230019,
  0x69000000ac001a0000000000000002c262012843883e03c9cbc001012c005000f342010000001f00090009060500320a7f00000000000000c0034b0c0c505a6e375a3c001a,
  0x1b001b000000000000000a924f8e0102803ad0ca4906010078003c003c4201000000920008000805050032147f0000011e0000001001ff04041e1428554b32001b,
  0x1b001c000000000000000a924f8e4902883ad0ca49460101270064009e4201000000920008000805050032147f0000011e00000020025a0404372d416e644b001c,
  0x1d001d0000000000000002924a000102003a8a89c33424004600280037410100000037004f00260501033214fe000000000000000101eb0303282829342f37001d,
  0x1d001e0000000000000002924a000102003a8a89c3342400c800500080410100000037004f00260f0f033214fe000000000000000202780303373738433e46001e,
  0x1d001f000000000000000ad24e88c906883bfeebc37c350258008200fd41010000007d004f00260f0f033214fe0000000000000003032d0403554b4c575c5a001f,
  0x2000200000000000000002924a000102003a0a89c33424005a00320037460100000037004f0026050103321400000000000000000401eb030328283228392e0020,
  0x2000210000000000000002924a000102003a0a89c3342400c3005a0080460100000037004f002605010332140000000000000000080278030337374139483d0021,
  0x200022000000000000000ad24e88c906883b7eebc37c35026c008c00fd46010000007d004f0026050103321400000000000000000c032d04034b55554d66510022,
  0x64000000ad00230000000000000002827219240b801a27f9fbb60d004b003c0071490100000084006200380606048c0abf000000510000000202961111413c23302d460023,
  0x65000000ad002400000000000000028272192c0b881a27f9fbf60d0190008200f249010000006d006200380606048c0abf0000005100000003031911115a5f3c49465f0024,
  0x25002500000000000000000242500212121a24884904100063003c003c450100000046001200120505003214bf000000f90000004001be09094132412829260025,
  0x25002600000000000000000252500a52121a24a869441800c7006e00b1420100000046001200120505003214bf000000f900000440024b09096451644b4c490026,
  0xae0027000000000000000082721b240b801a27f9bbb60500370032005f49010000008400ac0038060604320abf000000510000000202aa1100192d14142d730027,
  0xae0028000000000000000082721b2c0b881a27f9bbf6050078006400da49010000007700ac0038060604320abf00000051000000030332110032552d2d468c0028,
  0x1c000000290029000000000000000123c2000242047b88a0070c00004b0050003146010000009700270027040400320f7f000000000000004001ff0203281e37232d280029,
  0x1d00000029002a000000000000000123c2000a42047b88a0074c00022600a0009f46010000009700270027040400320f7f0000000000000080025a02034b415a46504b002a,
  0x2b002b00000000000000001262042002101a08803505200036003200404101000000320022002207070332147f000000000000010001ff030b414b1e37322d002b,
  0x2b002c0000000000000000126204200a901a088035052000560050008a4101000000010022002207070332147f00000000000002000278030b4b552846413c002c,
  0x2b002d0000000000000000126204280a901a08803d452000ba007800f540010000001b0022002207070332147f0000000000000300032d030b5a6e3255504b002d,
  0x2e002e00000000000000021263042002203a88c82585000036001e00394001000000060057001b07030032147f000000570056000401be0b06372d19374623002e,
  0x2e002f00000000000000021263042802303a88c825c50001270064008e4001000000060057001b07030032147f0000005700560018024b0b06503c1e505f3c002f,
  0x3000300000000000000000024200200200ba0890250400012c0064003d460100000032006e000e03030032147f000000000000040001be030637282d32373c0030,
  0x3000310000000000000001034200282214ba8890254400007d0096009e460100000093006e001303030032147f0000012700000140024b03064b5a5a3c41460031,
  0x32003200000000000000021246880102003ad88a01060000080014003545010000009f0047000805050032147f000000ed0000004001ff04042d235f19370a0032,
  0x32003300000000000000021246884902003ad88a014600014d0046009545010000009f0047000805050032147f000000ed00000080023204044632783264230033,
  0x34003400000000000000001352502342003b82a9c30e04002a0028003a42010000007f0065003505050032147f000000d90000004001ff000028285a232d280034,
  0x34003500000000000000001352502b42003b82a9c34e1401400064009a42010000007f0065000705050032147f000000d900000080025a00004141733c46410035,
  0x2b0000003600360000000000000006c242102102c11a80d843b04d00c400500040420100000021000d000605020032147f000000000000010001be0a0a3241373034320036,
  0x2c000000360037000000000000000ec242102902c91a80dc43f04d02fe00aa00af410100000021000d000605020032147f0000000000000200024b0a0a505f554e52500037,
  0x380038000000000000000a834e8002028a3ac0cfc30e8101180032003d4501000000800053004805050032147f000000000000000401be01012d23462350280038,
  0x380039000000000000000a834e804a028a3ac0cfc34e8101400064009f4501000000800053004805050032147f0000000000000008024b0101463c5f3c69410039,
  0x3a003a00000000000000028242200012023aa48849041000be0046004645010000009a0012001605050532143f000000000000000401be090932463c2d4637003a,
  0x3a003b000000000000000a8246200816023aa488694410060e00be00c245010000009a0012001605050532143f0000000000000008024b090950645f506e5a003b,
  0x3c003c00000000000000044246000002013a0098033044007c003c003c4101000000210006000b02020332147f000000000000004001ff0a0a28285a283228003c,
  0x3c003d0000000000000006c246000002813a00da03304500c8006400874101000000210006000b02020332147f000000dd0000008002780a0a32325a414141003d,
  0x3c003e000000000000000ec24e800a0a893a40de0372c5021c008200ff4101000000210006000b02020332147f000000dd00000030032d010a5a46465f5f5a003e,
  0x140000003f003f00000000000000000a7211240b90bb03b05b8c0900c3005a003e4501000000620027001c08080332143f000000f80000010001c80d0d37695a0f1419003f,
  0x150000003f004000000000000000000a7211240b90bb03b05b8c0902350082008c4501000000620027001c08080332143f000000f80000020002640d0d4678691e23280040,
  0x160000003f004100000000000000000a72112c4b98bb03b05bcc0901e0009600fa4501000000620027001c08080332143f000000f80000030003320d0d5f87782d32370041,
  0x28000000420042000000000000000a824e800202883a64ce03868100c30050003d4701000000500063003e08080332143f000000e60000000401b401012323233250460042,
  0x29000000420043000000000000000a824e800202883a64ce03868102c10096008e4701000000500063003e08080332143f000000e600000008025a01013c322d4664500043,
  0x2a000000420044000000000000000a824e804a02883a64ce03c681051400a000fd4701000000500063003e08080332143f000000e60000000c032d010155413750825a0044,
  0x4500450000000000000000126a042002103a098025050000280046003c4301000000520022002207070332147f000000000000000401ff030b1e4628234b320045,
  0x4500460000000000000000126a042002103a09802505000040006400894301000000520022002207070332147f00000000000000080278030b2d5537325a410046,
  0x4500470000000000000000126a042802103a0980254500009b00aa00f54301000000520022002207070332147f000000000000000c032d030b4664464169500047,
  0x880000004800480000000000000004524a040202413a08801f304401c7005a004341010000002c0040001d09090532147f000000f50000040001be030a6432462328280048,
  0x890000004800490000000000000004524a040a02413a08801f7044022600a000b441010000002c0040001d09090532147f000000f500000800023c030a7850644146500049,
  0x1f0000004a004a000000000000000a82468a5082801a74ca01040100c80028003c450100000008000500450a0a03320f7f000000e50000001001ff04051e1e14645028004a,
  0x200000004a004b000000000000000a82468a5082801a74ca010401041a00640089450100000008000500450a0a03320f7f000000e500000020027804052d2d23735f37004b,
  0x210000004a004c000000000000000a82468a5882881a74ca0144110bb8008c00f8450100000008000500450a0a03320f7f000000e500000030032d040541372d827850004c,
  0x5a0000004d004d00000000000000008242000012021a2480610400012c006400524201000000310012003205050032147f000000000000004001be090941415a375532004d,
  0x5b0000004d004e0000000000000000824a040812021a248061440003b600aa00af4201000000310012003205050032147f0000000000000080023c0909505069466441004e,
  0x4f004f0000000000000000ca76112402419a24ba4bb44c01680078003f4901000000900014000c02010032147f000001170000000101be0d0a28280f41415a004f,
  0x4f00500000000000000002ca7611ac4ac99aa4fa4bf44d031100a000ac4901000000900014000c02010032147f000000dd00000020024b0d0a50641e6e4b5f0050,
  0x51005100000000000000000642132483000e0381838400003c001e00414701000000940005002a0a0a003214ff000000e90000010001be080c375f2d4623190051,
  0x51005200000000000000000642132c83000e038183c4000258006400a34701000000940005002a0a0a003214ff000000e900000200023c080c4678465f3c320052,
  0x530053000000000000000133ca140002247a80804106000096005000844501000000800027003305040032147f0000010300000004022d02003e3a3c375a340053,
  0x540054000000000000000022c2040002047a80800106000188008c003e45010000004d0030003204040032147f000000f40000000401be020023234b2d55230054,
  0x540055000000000000000022c2040a02047b8080014e00035400b400a545010000004d0030003204040032147f000000f400000008022d02003c3c6e466e3c0055,
  0x56005600000000000000044242000002c03a00804b30440384006e0041480100000073005d002f05020032147f000000000000040001be0a0a462d2d372d410056,
  0x56005700000000000000044242008802c03a00804b704404b000aa00a6480100000073005d002f05020032147f0000000000000800024b0e0a5f464650465a0057,
  0x5800580000000000000000824a800282803b6ea9870c00012c005a004146010000008f003c00010b0b0032147f000001190000000101be03033228193250500058,
  0x5800590000000000000002824ac00a82883b6ee9874c01012c007800af46010000008f003c00010b0b0032147f0000000001190005024b03036441324b69690059,
  0x5a005a00000000000000004242008282401a00800330440028001e003d46010000008e005c004b09090532147f000000590058001001be0a0a192d2864411e005a,
  0x5a005b0000000000000000424a008a82401b008003f044052d009600b846010000008e005c004b09090532147f0000005900580020023c0e0a2d5546b45f32005b,
  0x450000005c005c00000000000000000a5a50029210bb08b0970c2000010082003e46010000001a001a001a0b0b0332147f000000000000010001be03072364501e231e005c,
  0x460000005c005d00000000000000000a5a50039290bb08b0970c20000100a0008e46010000001a001a001a0b0b0332147f0000000000000200025a030737735f2d322d005d,
  0x470000005c005e00000000000000028a5a500bda98bb08f1974c210195009600fa460100000082008200820b0b0332147f0000000000000300032d03074b826e3c413c005e,
  0x220000005f005f000000000000000a86469a5286001b508a410c1008340370004d470100000085000500450a0a0032197f0000000000000010012d04052d1e46a02d23005f,
  0x60006000000000000000000a7211244a80bb01f41b8c09014400640042420100000027006c000f08080032147f000000000000040001be0d0d5a2b2a2d303c0060,
  0x60006100000000000000000a72112c4a88bb01f41bcc0902f400a000a9420100000027006c000f08080032147f0000000000000800024b0d0d7349434649550061,
  0x6200620000000000000002d243840002e13a40c803304400410028004140010000007d004b003409090032147f000000000000000401e10a0a1919325a691e0062,
  0x6200630000000000000002d243840802e13a40c80370440258008200a640010000007d004b003409090032147f0000000000000008023c0a0a32324b7382370063],
  [0x64006400000000000000000242032083002f028183880000680032004240010000006a0009002b0a0a003214ff000000000000004001be0c0c373764321e280064,
  0x64006500000000000000000242032883002f028183c800029a007800ac40010000006a0009002b0a0a003214ff0000000000000080023c0c0c50509646323c0065,
  0x66006600000000000000008a7214208210ba099025850000190028004149010000008b0022002207070532147f0000000000000010015a0d0b2d3c2850283c0066,
  0x66006700000000000000008a7614288210ba099025c50804b000c800ba42010000008b0022002207070532147f0000000000000200022d0d0b4b7d37555f5f0067,
  0x680068000000000000000a82468c0002a03af4ca413401004100280040450100000004001f004501010032147f000001020000001001be04043228235f32320068,
  0x680069000000000000000a82468c4802a83af4ca41740101c200640095450100000004001f004501010032147f0000010200000020024b040450322d6e503c0069,
  0xec006a000000000000000a824e804002883a40c603068101f20096009f450100000054007800070808003219000000000000000008022d01016e2357357832006a,
  0xec006b000000000000000a824680400a883a40c603068101f6008c009f450100000027005900330808003219000000000000000800022d01016e234c4f6932006b,
  0x6c006c000000000000000ad256940802803a76ebe37605028f0078004d49010000000d000c001401010032147f0000011700000002012d00004b3c1e4b375a006c,
  0x6d006d00000000000000000242422292003b2ea1830c20000a003c00444601000000010100001a0b0b0032147f000000e40000001001be03032d3c235f4128006d,
  0x6d006e00000000000000000242422a92003b2ea1834c20005f007800ac4601000000010100001a0b0b0032147f000000e400000020023c030346553c785a41006e,
  0x6f006f000000000000000a824e8c5206003a768bc33410047e006400454701000000780045001f05010532147f0000000000000010017805041e1e195f5550006f,
  0x6f0070000000000000000ad24e8cdb06883a76cbc3741104b000be00aa4701000000780045001f05010532147f0000000000000008023c05042d2d287882690070,
  0x61000000710071000000000000000a8276992c0b809a76f3fbf64d015a006e018b4901000000830020001e0606048c28fe0000000000000002021e00006923320505fa0071,
  0x72007200000000000000021262142802103a0b80254500015e006400574101000000900066002207070032147f0000000000000010012d0b0b28643c7337410072,
  0x730073000000000000000ad24680890a883af6ebeb7655032000dc00ac450100000027007100300101003214fe0000000000000002022d000050285a505f690073,
  0x74007400000000000000044642000006411a008003304400500028003b410100000006006100210e020032147f000000eb0000010001e10a0a19463c46281e0074,
  0x74007500000000000000044642000806411a008003704400fa0078009a410100000006006100260e020032147f000000eb00000110024b0a0a2d5f555f41370075,
  0x4e0000007600760000000000000004424a040002011a00800330440096003c004040010000001f002900210c0c0032147f000000f30000000401e10a0a32233f3c432d0076,
  0x4f0000007600770000000000000004424a040802011a008003704401860082009e40010000001f002900210c0c0032147f000000f300000008023c0a0a504144415c500077,
  0x78007800000000000000044642132402410a019193b044015900500044450100000094001e00230909053214ff0000005b005a004001e10a0a374655372d1e0078,
  0x78007900000000000000044e7213ac02418a019193f0440320006e00b6460100000094001e00230909053214ff0000005b005a0080023c0d0a556473554b3c0079,
  0x5f0000007a007a00000000000000000a72112e4b98bb83f1bbcc090221008200a1490100000065006f002b08080032197f0000000000000800022d110d78645a412d28007a,
  0x7b007b00000000000000031343040822247a80c00bc4000230009600644301000000500065004403030032197f0000000000000004012d0206503769506e46007b,
  0xee007c00000000000000000a7210ae4a98bb01f003f84d0196008c009f400100000057006c000c0808003219fe0000000000000200022d0d0e5f735f233241007c,
  0xef007d000000000000000a8242012803883e02d5c3c001012c006e00ac4201000000480009000908080032193f0000014200000080022d0c0c555f69395341007d,
  0xf0007e000000000000000a82420008128a3a24d441440101bd008200ad4001000000480031003108080032193f0000014300000200022d090955645d395f41007e,
  0x7f007f000000000000000a92478c4802a83a40ca0344810226009600af4501000000990068003403030532197f0000000000000008022d0606463755647d41007f,
  0x800080000000000000000ac246804a02001a7683e376040374008c00ac45010000007d005300160505053214000000000000000044022d000046286e5f644b0080,
  0x1700000081008100000000000000000000000000000000000000000064005a002840010000009b002100210e0c0532057f000000000000004001ff0a0a140f50370a140081,
  0x180000008100820000000000000006c24641ca06411b3483c37854092e028a00bd410100000099001600160e0c0532057f0000000000000008022d020a643c514f7d5f0082,
  0x8300830000000000000006c256008806401a0291cb7054089800fa00bb41010000005d004b000b02010532287f000000f300f30002022d0e0a5f553c5055820083,
  0x84008400000000000000000000000000000000000000000028001e0065460100000096000700070d0d003214ff0000010101120001022300003030303030300084,
  0x85008500000000000000000242000002001a00a84306000041001e004145010000006b005b003205050032231f0000000000000400012d0000412d373237370085,
  0x8500860000000000000006c242000802411a00a84376540122006400b841010000005d000b000b05050032231f0000000000000002022d0a0a5f6e413c41820086,
  0x85008700000000000000028242012803001e02a9c3c61000f5005000b842010000005f000a000a05050032231f0000000000000080022d0c0c5f6e823c41410087,
  0x85008800000000000000028242000812021a24a843461000fa005a00b840010000003e0012001205050032231f0000000000000008022d09096e5f413c82410088,
  0x89008900000000000000000a52112c03002a82b1e37400016d0050004f490100000094005800240a0a003214ff0000000000000100012d00004b5528463c410089,
  0x8a008a000000000000000642428a1002413a5080033044004b00280047410100000085004b0021090200321e1f0000000000000010012d0a05375a23642823008a,
  0x8a008b000000000000000e42428a5802413a5080037044015e006400ad410100000085004b0021090200321e1f0000000000000020022d0a054673377d3c46008b,
  0x8c008c00000000000000064242885002413ad08807304400730032004745010000008500040021090200321e1f0000000000000010012d0a052d37375a501e008c,
  0x8c008d000000000000000e52438c5802413ad0c80770440195008200ad45010000008500040021090200321e1f0000000000000008022d0a0546415069733c008d,
  0x8e008e0000000000000003a246885a06047bf482434c12024e00b400b446010000007f002e004504040532231f0000000000000080022d02054b3c82416950008e,
  0x710000008f008f000000000000000ac246800c02881a76f3a3760511f800d200bd440100000052002f001101010532281f000000ea00ea0002021900006e411e416ea0008f,
  0x900090000000000000000323c2008802044a9180037454022a00aa0122410100000051002e002e0f0f052350ff0000000000000c000303020e7d5f5564555a0090,
  0x910091000000000000000323c2012803044e928183c450020e00a00122420100000009002e002e0f0f052350ff00000000000003000303020c5a7d64555a5a0091,
  0x920092000000000000000323c2000812064ab4802b4410025800c80122420100000031002e002e0f0f052350ff000000000000030003030209557d5a5a645a0092,
  0x93009300000008000000044242010806001a2681cbf444002100b4003c41010000003f003d003d0e020523287f000000eb00000004012d0f0f3232322d40290093,
  0x93009400000008000000044242010806001a2681cbf44400a50190009341010000003f003d003d0e020523287f000000eb00000008022d0f0f46464641543d0094,
  0x9300950000000800000007f2468148068c5af6c3cbf457083400dc012c450100000088002700270e020523287f000000eb0000000c032d020f6464505f865b0095,
  0x960096000000000000000a8a7e91ec5b988bf7f7ebfccd04c400c8015446010000007f002e002e0f0f050078ff000000000000030003030d0d5a9a825a6e6a0096,
  0x970097000000000000000fffffffffffffffffffffffff00280028012c49010000001c001c001c0f0f036478ff0000009d009d0003032d0d0d6464646464640097,
  0x98009800000000000000001262042002101a01806d87000040005a00404301000000660041004107010332141f0000000000000400012d0b0b41312d41312d0098,
  0x98009900000000000000029262042002101a01806d8700009e0078008e4301000000660041004107010332141f0000000000000410022d0b0b503f3c503e3c0099,
  0x98009a000000010000000a9266042802101a01826dc70003ed00b401074301000000660041004107010332141f0000000000000810032d0b0b645350645250009a,
  0x9b009b00000000000000001242000012021aa488010600004f0032003e4201000000120042004205050332141f0000000000000040012d0909323c412b3427009b,
  0x9b009c00000000000000029242000012021aa4c801061100be005a008e4201000000120042004205050332141f0000000000000140022d09094150503a403a009c,
  0x9b009d000000020000000a92468209128a1ae4ca214611031b00aa010b4201000000120042004205050332141f0000000000000300032d0909556d644e544e009d,
  0x9e009e00000000000000045242840102811ac0c8433247005f003c003f41010000007d0043004302010332141f0000000000000004012d0a0a302c2b404132009e,
  0x9e009f0000000000000006d242840102811ac0c843325700fa006e008e41010000007d0043004302010332141f0000000000000014022d0a0a3f3b3a505041009f,
  0x9e00a0000000040000000ed246848906891ac0ca437257037800e6010941010000007d0043004302010332141f0000000000000018032d0a0a534f4e64695500a0,
  0xa100a100000000000000005362000103803a06e8e33605003c0050002b45010000007700330032050500320f7f000000000000000401ff00002d2314222e2300a1,
  0xa100a20000000000000002d362000903883a06e9e37605014500b4009145010000007700330032050500320f7f0000000000000080025a0000372d5a404c5500a2,
  0x6a000000a300a3000000000000000122d2100442047a81b003060800d40046003445010000006e0033000f040400320f7f000000000000000101ff02003824321e1e3c00a3,
  0x6b000000a300a4000000000000000122d2100c42047a81b0034608019800a0009e45010000006e0033000f040400320f7f0000000000000002025a020060564632326400a4,
  0xa500a50000000000000000034204202a843a81c82d8401006c0064003540010000009b00300044030304320f7f000000000000040001ff02065028371e142800a5,
  0xa500a60000000000000002834204282a8c3a81c82dc4010164008c008940010000005900300044030304320f7f0000000000000800025a02066e375532233700a6,
  0xa700a70000000000000000024b002022003a0898250400005500320032430100000061000f0044030304320f7f000000000000000401ff030628281e283c2800a7,
  0xa700a80000000000000000024b042822003a0898254400014f006e008c400100000061000f0044030304320f7f0000000000000008025a0306463c28465a4600a8,
  0x1e0000002900a9000000000000000123c3400a42047b88a0074c2002ee00b4010c46010000009700270027040400320f7f00000000000000c0035a0203504682505a5500a9,
  0xaa00aa00000000000000044242012003411e028193304400780032004241010000000b0023000a0c0c0532147f000000000000000101be0c0a38384326264b00aa,
  0xaa00ab00000000000000044242012803411e028193704400e1007800a141010000000b0023000a0c0c0532147f0000000000000002024b0c0a4c4c433a3a7d00ab,
  0x67000000ac00ac00000000000000004262012043801e0381c380000014001e002942010000001f000900090f0f00320a7f000000000000004001be0c0c23233c0f281400ac,
  0x63000000ad00ad00000000000000000272112402801a27b86b8604001e001e002c490100000084006200380f0f048c0abf000000510000040001961111372d0f1c193200ad,
  0xae00ae00000000000000000272112402801a27b82b8604000a001e002a49010000008400ac00380f0f04320abf000000000000000101aa110014280f0f1e5a00ae,
  0xaf00af00000000000000020272112042801a27b03b8604000f001e0031480100000069002000370f0f04320a1f000000000000040001be111141281441142300af,
  0xaf00b00000000000000003227211284a845aa7f03bc6050020003c008e48010000006900200037060404320a1f0000000000000800024b021169502855283700b0,
  0xb100b100000000000000000bf211200204fa81b037840800140014004043010000009c0030001c04040032147f000000000000010001be020d2d46462d322800b1,
  0xb100b200000000000000012bf211280204fa81b037c4080096009600a543010000009c0030001c04040032147f0000000000000140024b020d465f5f464b4100b2,
  0xb300b300000000000000000242012003001a0381cb8000004e003c00384801000000390009000905010332147f000000000000010001eb0c0c2d412328283700b3,
  0xb300b400000000000000028242012003801e03c1cb80010085005000804901000000390009000905010332147f000000000000020002780c0c3c502d37374600b4,
  0xb300b5000000000000000a8246012807881e03c1cbc0010267008c00ff4201000000390009000905010332147f0000000000000300032d0c0c5a7337554b5a00b5,
  0x2b00b60000000000000000126204280a901a08803d4520003a002800f54301000000830022002207070332147f0000000000000c00032d0b0b645a325f504b00b6,
  0x7d000000b700b70000000000000006c262000002811a00c843b24500550028005841010000009d0025002f060204320a7f000000000000000202be110a32142832144600b7,
  0x7e000000b700b80000000000000006c266000802891a00c843f245011d005000d241010000009d0025002f060204320a7f0000000000000003034b110a503c3250326400b8,
  0x5d000000b900b900000000000000028246985082803b50ca010c09017c0078009045010000009b004500050a0a0032147f000000000000002002410505411e1e73644600b9,
  0x3c00ba0000000000000006c246000a02893a00da0370450153006e00fa4301000000020006000b02020332147f000000dd00000c00032d0a0a645a464b4b5a00ba,
  0xbb00bb00000000000000000362142002101a81803505000005002800324901000000970066002207060332147f000000000000040001ff020b37233228232300bb,
  0xbb00bc00000000000000000362142002101a8180350500000a003c00774301000000970066002207060332147f00000000000000800278020b412d50322d3700bc,
  0xbb00bd00000000000000000362142802101a8180354500001e005000e64101000000970066002207060332147f00000000000000c0032d020b5f376e46374b00bd,
  0x3f000000be00be00000000000000029372010342803a82ede30e0500730050004846010000005c0035003205050432147f0000000000000040012d000037285537463700be,
  0xbf00bf00000000000000001262002002101a08802d85000012001e0024420100000030005e002207070332147f000000000000010001eb0b0b1e1e1e1e1e1e00bf,
  0xbf00c000000000000000001262042802101a08802dc500005500500095420100000030005e002207070332147f000000000000020002780b0b55691e374b4b00c0,
  0xc100c100000000000000010352042022047a80b0250400017c0078004e400100000077000e000303030032147f0000010900000040014b02062d4b5f2d414100c1,
  0x75000000c200c200000000000000064246002002011a188a4b306400550028002a41010000006d000b000605020032147f000000000000000101ff040a19190f2d2d3700c2,
  0x76000000c200c30000000000000006c246806802893a58ca4b706502ee008c009741010000006d000b000605020032147f0000000000000002025a040a41412355555f00c3,
  0x8500c400000000000000001a72102802009a01b853c6080109005a00b846010000009c001c001c05050032231f0000000000000200022d0d0d5f826e3c414100c4,
  0x8500c500000000000000001252702a02003b00b8434e00010e006400b8440100000027001c001c05050023231f0000000000000800022d1010823c416e415f00c5,
  0x4a000000c600c6000000000000000122d2710202047b80b0030c0800150032005144010000009e0069000f04040323147f0000000000000040011e02102a555b2a553c00c6,
  0x4f00c70000000000000002ca7611ac4ac99a24fa4bf44d031b00c800ac4901000000900014000c02010032147f000000dd0000080002460d0a6e641e504b5f00c7],
  [0x48000000c800c800000000000000000a5251225300bb82b1930c08000a0046005747010000001a001a001a0b0b0423197f0000000000000400012d07075555553c3c3c00c8,
  0x72000000c900c90000000000000000000000000000000000000000003200320076441c01ee001a001a001a0f0f003228ff000000000000010402e10d0d30483030483000c9,
  0xca00ca0000000000000000000000000000000000080000011d0082008e41010000008c001700170b0b0032147f0000000000000002022d0d0d3a21213a21be00ca,
  0x79000000cb00cb00000000000000028a7611244310ba03b3d38608019f0096009f42010000009d0030002705050032147f0000000000000200023c0d00415a5541504600cb,
  0xcc00cc000000000000000282468202a2001a518a2584000048003c003a47010000008e0005000503030032147f000000000000001001be060623230f5a413200cc,
  0xcc00cd00000000000000028646821aa2001e518a25c40004ea007800a346010000008e0005000503030032147f0000000000000020024b08063c3c288c5a4b00cd,
  0xce00ce0000000000000002825e9b0003043a66abe3340c008c0096009142010000009b0032002005050032147f000000000000000102be000041412d46466400ce,
  0xcf00cf0000000000000003934fcc5202a47bd8ca430c000288006e00564601000000110008003403030332147f0000000000000010013c0204412355694b4100cf,
  0x230000005f00d0000000000000000a9646da5a86001b508a414c100fa0039800b347010000007d000500450a0a0032197f000000e9000000200219040841371ec8554b00d0,
  0xd100d100000000000000028246210202823b2febb30e95004e003c003c49010000009b003200160605043214bf000000000000000401be111128281e32503c00d1,
  0xd100d2000000000000000a8246a14a028a3b6febf34e9501e7008c009e46010000009b005f00160605043214bf0000000000000008024b11113c3c2d4b785a00d2,
  0xd300d30000000000000004424a070282411a0aa0033864002700320058470100000016002100260c0c0032147f000000f500000004012d030a373755555f4100d3,
  0x7b00d400000000000000039743040822a47a90c00bc400049c00b400af4001000000870065004403030032197f00000000000000080219080650374164824600d4,
  0xd500d5000000000000000282468a7002001a588a09042000cd003c00b142010000007e0052000503030332147f0000002b002b041002be0506e60a05e60a1400d5,
  0x3e000000d600d600000000000000029246844902a83ac0ca034781021c009600af410100000099003e004403030532197f0000000000000008022d01065f28554b7d5000d6,
  0x90000000d700d70000000000000002d25b748302a03b81ec433c490118005a005644010000007c0033002705050323147f000000d900000040013c0e104b2373375f3700d7,
  0xd800d800000000000000029246840302803bc0ca030e910058003c0042450100000076005f003505050032147f00000000000000040178000032322832503c00d8,
  0xd800d9000000000000000a924684cb02883bc0ca034e9104ea00b400af45010000007f005f003e05050032147f0000000000000008023c00004b4b374b825a00d9,
  0xda00da00000000000000020242800012021a7580018400015e00460032400100000085003100280b0b0032147f000000000000010001be090928461428282800da,
  0xda00db000000000000000282468a5892021a758221c400022600500097400100000085003100280b0b0032147f0000000000000020024b0509505a1e78323c00db,
  0xdc00dc00000000000000028246888002001a518a03b05000410028003245010000002f0051000c05050532147f000000000000000401e1040e1e1e3228323200dc,
  0xdc00dd0000000000000002824688c802001a518a03f050022e006e009e45010000002f0051000c05050532147f0000000000000005024b040e3c3c3250646400dd,
  0xde00de0000000000000002c246885082411a51ba0bb44c0032003c0090490100000090001e00370902043214bf000000ee00000410023c050a5f41235f374100de,
  0x84000000df00df00000000000000044242010003413a24900375040078003c003c47010000008d006100370c020032147f000000000000010001be0a0a23414123412300df,
  0x85000000df00e000000000000000044642010a03513a2c90037504011d005a00a840010000008d006100150c020032147f0000000000000104024b0a0a4b692d4b694b00e0,
  0xe100e1000000000000000122c2008402807a80c003304500a0005a007440010000000f0037004805020432147f0000000000000040022d020e2d414b2d372d00e1,
  0x8d000000e200e200000000000000054246800802451ac082037144089800d200aa460100000029000b002102020532197f00000000000008000219020a8c504646285500e2,
  0xe300e3000000000000000336c3cc2202047bd080010c1001f900aa00a34701000000850005003304040532197f000000e900000020021902084628468c504100e3,
  0xe400e400000000000000020252600252023b2ca0610c10006c003c004244010000007f0012003005050523147f0000000000000100017809103250411e3c2d00e4,
  0xe400e500000000000000028252600a52023b2ca0614c10015e008c00af44010000007f0012003005050523147f0000000000000200022d0910506e5f325a4b00e5,
  0x7400e600000008000000044642000806411a008003704405f000b4010e410100000006006100210e020032147f000000eb00000504032d0f0a5f5f555f5f4b00e6,
  0xe700e700000000000000028246880002001a5082410410014f003200424101000000080035003505050032147f0000000000000001017804042828283c3c5a00e7,
  0xe700e80000000000000002824e8a5802001a508241441004b0006e00af4701000000080005000505050032147f0000000000000014023c04043c3c3278785a00e8,
  0x8900e900000000000000000a52112c03002a82b1e374000145003c00b4400100000094005800240a0a003214ff0000000000000200022d00005f693c5a505500e9,
  0xea00ea00000000000000000a5611280310ba03b3e3861802c8008c00a345010000009d0077001605050532147f0000000000000004022d00004155553e5f4900ea,
  0xeb00eb000000000000000000000000000000000000000002440078005848010000008d0065001405050432147f0000000000000040022d00002d144b23143700eb,
  0xec00ec00000000000000028246800002003a00c603068000d20046002a4601000000480050003e0f0f003219000000000000000004014b010123232323232300ec,
  0xec00ed00000000000000028246824002083a90ce03068001e0008c009f450100000050006500160808003219000000000000000800022d01016e23465f5f3200ed,
  0xee00ee00000000000000000a7210a64280ba01b003b04c003c0028003d49010000005d006c000c0f0f003219fe0000000000000100012d0d0e4155410f1e2d00ee,
  0xef00ef00000000000000020242012003803e02d183800100eb003c0048420100000048000900090f0f0032193f0000014200000040012d0c0c37415f253f2d00ef,
  0xf000f000000000000000020242000012823a24d041040100d600460049400100000048003100310f0f0032193f0000014300000040012d0909374653254b2d00f0,
  0xf100f10000000000000002c2469b0802881a52e3e3760502f3007800ac49010000009d0071002f0505053214fe0000002100210020022d000046286469505f00f1,
  0x620000007100f2000000000000000a827699ac0b889a76f3fbf64d01d40096027b4901000000830020001e0606048c28fe000000e700000003031e0000874b370a0aff00f2,
  0xf300f3000000000000000a9246312803010e13a9c3c41806f400be0122420100000027002e002e0f0f052350ff000000000000018003030c0c6473734b555a00f3,
  0xf400f4000000000000000a9246306812020a35a863441807bc00d20122450100000027002e002e0f0f052350ff0000000000000009030309094b5a6455737300f4,
  0xf500f5000000000000000e5246308802410a11a843745c074e00c80122410100000027002e002e0f0f052350ff000000000000081003030a0a735a55734b6400f5,
  0xf600f600000000000000020246e85202001b50ca434c0002d0003c003c430100000008003e003e01010523287f0000000000000004012d0405322d2932403200f6,
  0xf600f700000000000000020246e85202001b50ca434c0005f00078009047010000003d003d003d01010523287f0000000000000008022d040546413346544600f7,
  0xf600f8000000000000000ad246e9db06881bf6cbc37c1707e400c8012c43010000007f002d002d01010523287f000000000000000c032d1005645f3d6e866400f8,
  0xf900f90000000000000007e25611a80744ca93b3cff45c087002080154480100000088002e002e0f0f050078ff0000000000000c000303020d9a5a6e825a6a00f9,
  0xfa00fa0000000000000003a2d6112813064ab7b3afc41807c6017c0154400100000090002e002e0f0f050078ff0000000000000c00030302099a6e5a5a826a00fa,
  0xfb00fb00000000000000001b721d2843908a93b03fc40c0032003c012c43010000001e001e001e0f0f036478ff0000009d009d0003032d0b0d64646464646400fb,
  0xfc00fc0000000000000002926284200a901ac0c86d070100320032003e430100000054004100410e010332141f0000000000000040012d0b0b374146232d2800fc,
  0xfc00fd0000000000000002926384200ab01ac0cc6d070100d8005a008e430100000054004100410e010332141f0000000000000080022d0b0b41555f2d413200fd,
  0xfc00fe000000010000000a926784280eb81ac0ce6d4713020a00aa0109430100000054004100410e010332141f00000000000000c0032d0b0b55697841554600fe,
  0xff00ff00000000000000029242840112021ae48801060000190028003e4001000000030042004205050332141f0000000000000100012d090932462d283c2d00ff,
  0xff01000000000000000002924a8401128a1ae4cc01068100c3005a008e4001000000030042004205050332141f0000000000000104022d01093c55373c553c0100,
  0xff0101000000020000000a934e8449128a1ae4ce214691020800be01094001000000030042004205050332141f000000000000000c032d0109466e504678500101,
  0x10201020000000000000006c242808002011a4088433244004c0028003e4101000000060043004302010332141f0000000000000004012d0a0a3232283246320102,
  0x10201030000000000000006c246888002811a40ca43324401180046008e4101000000060043004302010332141f0000000000000008022d040a463c324655460103,
  0x1020104000000040000000ec24688c802891a40ca4372d503330096010c4101000000060043004302010332141f000000000000000c032d040a5a553c5a6e640104,
  0x105010500000000000000020242600242003b00a8430c1000880032003847010000009b005f0032050500320f7f000000000000000401ff10101e1e232337230105,
  0x105010600000000000000028242600a42003b00a8434c10017200640093470100000099005f0016050500320f7f0000000000000008027f10103c3c46465a460106,
  0x107010700000000000000025262010003803a02a9c3360400af0028003845010000005f00520035050500320f7f0000001c0011004001ff0000291e3c291e260107,
  0x10701080000000000000002d262010903803a02a9c3761401450032009348010000005f00520035050500320f7f0000001d00110080025a00003d32643d464e0108,
  0x3000000109010900000000000000000000000000000000000000000024001e003840010000003200130013030300320f7f000000d50097000101ff06061e1414232d2d0109,
  0x3100000109010a00000000000000000000000000000000000000000064003c004848010000003d003d003d030300320f7f00000000000000200278060619190f372332010a,
  0x3200000109010b00000000000000010342002822143a80b02d4400011c006400c642010000004f00440044030300320f7f0000012700000300032d020632644132463c010b,
  0x3300000109010c000000000000000000000000000000000000000000730046004846010000003d003d003d030300320f7f00000000000000200278060619190f372332010c,
  0x3400000109010d00000000000000010342002822143a88b025c420013c007800c143010000000e00130013030300320f7f0000012700000c00032d03065a324146323c010d,
  0x10e010e00000000000000004262042002113a0080273544001a0032002c430100000014002c0021070203320f7f000000db0000040001ff0b0a32281e1e1e28010e,
  0x10e010f0000000000000006c26204200a913a00c0273544014500780077430100000014002c0021070203320f7f000000db0000080002780b0a463c3232323c010f,
  0x10e0110000000000000000ec26204280a993a00c02775450226009600f0430100000014002c0021070203320f7f000000db00000c00032d0b0a645a464646500110,
  0x1110111000000000000000202620422c2301a00a825050000280032002c45010000007c00300022070503320f7f0000010f0000001001ff0b0b1e1e1e3228280111,
  0x111011200000000000000029262f422c2b03b40ec25450001180064007745010000007c00300022070503320f7f0000010f000000080278100b283c3c2846460112,
  0x111011300000000000000039263f42ac2b83bc0ec2545000254008200f045010000007c00300022070503320f7f0000010f0000000c032d100b3c5a503c645a0113,
  0x1140114000000000000000123c2000002047a80800306000017001e0036410100000071003e003e040403320f7f000000000000004001c802001e1e551e37280114,
  0x1140115000000000000000123c2000802047a808003460000c60046009f410100000071003e003e040403320f7f0000000000000080022d0200324b7d3c553c0115,
  0x77000001160116000000000000000123c2000002457a8280033044005f003c003648010000002c005d003304020032147f000000000000004001be020a1e37551e1e280116,
  0x78000001160117000000000000000163c2000a02c57a828003704401180078009a42010000002c0002003304020032147f0000000000000020022d020a465f4164323c0117,
  0x118011800000000000000000a7211241380bb03b09b8c0800420028002848010000008c0024001c0b080523147f000000000000010001eb110d232d2819191c0118,
  0x118011900000000000000000a7211241380bb03b09b8c0800ca0050006148010000008c0024001c0b080523147f00000000000002000278110d3741322323260119,
  0x118011a00000000000000000a72112c1398bb03b09bcc0801e400a0010348010000008c0024001c0b080523147f0000000000000300032d110d737d50414144011a,
  0x11b011b00000000000000000242102002013a00a027340400110032003641010000002c00210021030200320f7f00000000005e004001c80a06343241201e28011b,
  0x11b011c00000000000000010342102822153a80a027740400240050009f41010000007f00160016030200320f7f000000de00000500024b02065264503e3c46011c,
  0x11d011d0000000000000000026200200a301a08802d0520002d0028003b45010000005f005a001b070602320f7f000000570056000101ff0b0b3c28233c283c011d,
  0x11d011e0000000000000002926284680ab81a48c46d47810188007800a1430100000065005a001b070602320f7f0000005700560008025a010b3c3c4650823c011e,
  0x11f011f00000000000000029242800102801ae6e1a3368500f00050003845010000003600360036050505320f7f000000000000000101ff000023231e3c3c3c011f,
  0x11f0120000000000000000a9246800102881ae6e7a33e9501d1008c009a48010000004800480048050505320f7f00000000000000800278000037375a5050500120,
  0x11f0121000000000000000a9246800902881ae6e7a37e95051900c8011d45010000003600360036050505320f7f0000000000000003032d0000415f6464a0960121,
  0x122012200000000000000001243002022200a90a8250400003700320035470100000032000e000e030301320f7f000000ed0000001001ff04061e1e285a2d1f0122,
  0x122012300000000000000011343042822242a90a82544000078005000a042010000009700030003030301320f7f0000000000000080027802063232a02d5a3d0123,
  0x122012400000000000000001253002932202a90a8254400000c00500053450100000019001900190a0a01320fff0000000000000002022d07061e1e282d5a010124,
  0x125012500000000000000000242000002801a26a023361400a3003c003049010000009b002b002b05010332147f000000000000000101be000017331c1733400125,
  0x125012600000000000000028246800002821b66e2233e1401950064007e410100000071002b002b05010332147f0000000000000002027800002b47302b47540126,
  0x1250127000000000000000ac2468088028a1b66e2237e140348009600f5410100000071002b002b05010332147f0000000000000003032d0000495b443f5b680127,
  0x1280128000000000000000ac24e800002881a40ce03068103600064002f42010000007d003e002f08080232143f000000f10000000101b401011e14191e3c480128,
  0x1280129000000000000000ac24e804a02c81a40ce03468109ea00e600a645010000007d003e002f08080232143f000000dd0000000202c801013c28323c78900129,
  0x7c0000012a012a00000000000000044242000002011a008043b24400140014002641010000009d0025002f0f0f04320abf000000000000000101961100281414281432012a,
  0x12b012b00000000000000028246895082001f5283910c0003ca0064004b47010000009f002a00050a0a0032147f000000f20000001001ff05055a2d1e872d1e012b],
  [0x12c012c00000000000000000272112243001a02a9eb360c006e003c003449010000009300600038060504320fbf000000000000004001ff00002323322d2d32012c,
  0x12c012d00000000000000028272112a43001a02a9eb760c0146006e008c46010000009300600038060504320fbf0000000000000041023c000037375a414146012d,
  0x12e012e0000000000000002125a72235a803bc2fc130c0d006e0032008546010000009e0064003308080323197f0000010900000014022d07104141324b4b32012e,
  0x12f012f00000000000000028662cc4a03a81b7ce0235c010073003c008544010000007d0016003406050432147f0000011600000014022d1108373732555532012f,
  0x130013000000000000000029246881102001ad28a4304140258002800424701000000860045000501010523237f000000ee0000001001b4050828281e6446320130,
  0x130013100000000000000029246885102001ad28a43041404b0005a00974701000000860045000501010523237f000000ee00000020025a05083232288c5a3c0131,
  0x1300132000000000000000ad646c9db06881af6cbe37c170e1000d201094701000000860045000501010523237f000000ee00000030032d05083c3c32b46e460132,
  0x560000013301330000000000000002827a90240a881a41f40386890070003c003841010000008c004a004a08080032147f000000000000004001b40d0137283c37281e0133,
  0x570000013301340000000000000002827a902c0a981a41f403c689013b0082009040010000008c004a004a08080032147f0000000000000080025a0d014b3c504b3c3c0134,
  0x135013500000000000000008242212003003e0681c380100098003c003b43010000003a001f000905050532147f000000000000004001780c0c284141282d280135,
  0x135013600000000000000008242212803023e0681c3c0100192009600a642010000003a001f000905050532147f0000000000000080022d0c0c3c69693c4b460136,
  0x137013700000000000000000262012043809e0281c38000002a0028008e42010000001f0039003906060032147f000000000000004002c80c0c4b555f28323c0137,
  0x138013800000000000000000262012043801e0281c38000002a0028008e42010000000a003a003a06060032147f000000000000004002c80c0c554b5f32283c0138,
  0x139013900000000000000000342112023843a82e1b7840500b10046009747010000009e00440023080301320f00000000d50000004002960606552f554b49410139,
  0x13a013a00000000000000000342112023843a82e1b7840500b1003c009746010000009e006e000c080302320ffe000000d500000040029606065549554b2f41013a,
  0x1a0000013b013b0000000000000000126a142002101a08a03705200014001e008c4301000000660026001e07060332147f000000f5000002000296030b5064412d3c32013b,
  0x13c013c00000000000000028252000082001a0aa023152400670028003c430100000052003c00400b0b0232147f0000009e009b000101e10303352b28352b46013c,
  0x13c013d00000000000000028256000882001a0aa2235524032000aa00a3460100000052003c00400b0b0232147f0000009e009b0002024b0303534937534964013d,
  0x13e013e00000000000000044242600202413b008003384400d00050003d400100000003001800180c0c0523147f000000e20000000401e1100a144141145a2d013e,
  0x13e013f0000000000000006c24e608a02413b4082037854037800b400a1410100000003001800180c0c0523147f000000e200000008023c100a285f5f287846013f,
  0x14001400000000000000006c246008002411a4082033054051400c8005041010000002e000c00290c050232287f0000000000000001017d0a0a23463c2346820140,
  0x14001410000000000000006c246008802411a40820370540f8c05aa00af41010000002e000c00290c050232287f0000000000000002023c0a0a2d5a3c2d5aaa0141,
  0x142014200000000000000028246880012021a748a01040000f00046003d4201000000140056000c05050032147f000000000000010001ff04092d4123283c3c0142,
  0x142014300000000000000028646885892021a748a214410089800be00a14001000000530074002805050032147f0000000000000104029604094b69284664460143,
  0x1440144000000000000000282468a4892021a6c826144000324003200a545010000004b0046004905050032147f000000f900000020025a09094655148c55460144,
  0x145014500000000000000000a7211260300bb03b0438c080132004600424401000000520014002f05050432147f000000000000040001ff0d0d50463c23193c0145,
  0x145014600000000000000000a76112e4b98bb03f043cc0902cb005a00a54601000000520014002f05050432147f0000000000000800023c0d0d6e5a50412d500146,
  0x147014700000000000000028a5290240a80ba42f80b060d0032006e007e45010000007e004d0014080504320f7f000000000000010002ff00003c3c3c3c3c3c0147,
  0x148014800000000000000028246800002001a508a25440000960046003a45010000007d004700340e030332147f000000ed0000000401ff04042d2d0a2d642d0148,
  0x14801490000000800000003a346800026045a508a2544000099006e007743010000001a001a001a0e030332147f000000000000004402780f043232463246320149,
  0x148014a0000000800000003a346804826045af48a654402033400c8010443010000001a001a001a0e030332147f0000000000000084032d0f04505064506450014a,
  0x14b014b0000000000000000126a44224a901a10c025050102010028004343010000000b0008000808070323147f000001200000010001be0b0b285523285532014b,
  0x14b014c0000000000000000926a442a4a981a10c02545010306008200a643010000000b0008000808070323147f0000012000000104023c100b3c73373c7346014c,
  0x14d014d000000000000000022d2100006247a80803b1400000c0028003e41010000000d001e001e0e040132147f000000000000040001ff02004b28323c282d014d,
  0x14d014e000000080000000222d6100806247aa4827b541200ce006e00ac41010000000d001e001e0e040132147f0000000000000800022d020f6946505a464b014e,
  0x14f014f000000000000000a824b850302a83ae6e9e73e150193008200a04801000000890011001105050132147f000000d900000008025a00003c3c5a3c7349014f,
  0x15001500000000000000002824f440202003a0c8a470c00020d010e00a0440100000097003d003d0e050232147f0000012700000104025a03033c64413c64490150,
  0x151015100000000000000000a769a7cc3008a51b20bf0480690006400a142010000001a001a001a0a0a043219ff00000051005a0200022d0d05555f4641375a0151,
  0x152015200000000000000000a769e7c93028a75b22bc4080604007800a140010000001a001a001a0a0a043219ff00000050005a0008022d0d05413746555f5a0152,
  0x5000000153015300000000000000044246000002011a508203304400130028003a47010000005d006b000c0c0c0032147f000000000000000101be040a292e3c2b30320153,
  0x510000015301540000000000000006c246804802011a508203704400ec005a00a441010000005d006b000c0c0c0032147f0000000000000002024b040a474c3c494e6e0154,
  0x15501550000000000000006d243840202a11ac8c80338440073003c003e40010000005b004b0034090202320f7f000000000000000401cd0a0a23322341502b0155,
  0x15501560000000000000006d243e48a42a11ac8c80378440148006e00a440010000005b004b0034090202320f7f0000000000000008029b100a375a3755783f0156,
  0x157015700000000000000000a769a3483008a51ba3b940800d70032003c45010000001a001a001a0a0a003214ff0000010d0000040001ff0d044628373728280157,
  0x157015800000000000000028a769a7cc3008a51ba3bd4080438009600af44010000001a001a001a0a0a003214ff0000010d00000800025a0d0478464b69463c0158,
  0x1590159000000000000000002628c3002501a588025050000ee0064004746010000007200150015090901321e1f0000012800000400012d0b05573d174d29420159,
  0x159015a000000000000000282668c7802501a588a254500025c009600ad43010000007200150015090901321e1f0000012800000800022d0b056b512b615156015a,
  0x15b015b000000000000000212438c1002601ad0c8010404007d0046004747010000002100040004090901321e1f0000000000000004012d060532284b325f2d015b,
  0x15b015c000000000000000296478c5902601ad0ca41440402aa009600ad47010000002100040004090901321e1f0000000000000008022d060550462d647d4b015c,
  0x8a0000015d015d00000000000000044242000006411a008043b044004a003c002845010000005b000c00210e020132147f000000000000004001ff0a0a370a50140f14015d,
  0x8b0000015d015e00000000000000044246108806411a00804bf0440654026c00bd49010000003800ac003f0e020132147f0000000000000800023c0a0a7d64514f3c5f015e,
  0x15f015f0000000000000000024211a002113a36a1a336440008001e009347040209003b003b003b0b060032197f000000f300f30001022d0000464646464646015f,
  0x160016000000000000000029a6299254b80bae6e9e3360500dc0064009a4301000000a80010001005050332147f000000000000040002c80000783c28465a3c0160,
  0x161016100000000000000000a5251221300bb02b1930c080017003c003b4401000000820077000f0b0b0423197f000000f70000000401e10707213f2d234b2c0161,
  0x161016200000000000000000a52512b1380bb02b1934c08007d006e009f4401000000820077000f0b0b0423197f000000f700000008022d07073f53414173400162,
  0x163016300000000000000000a5250221380bb00b0033c0800960050003b440100000077001a001a0b0b0423197f000000f70000040001be07075a1e195a28140163,
  0x163016400000000000000028a56d02a1380bb40f2037c09013200a0009f440100000077002e002e0b0b0423197f000000f700000410025a0707823c198246280164,
  0x16501650000000000000003b266042806145a80822d451003e800c800a143010000008b005e002207010532197f000000000000000202c8020b5748335344630165,
  0x5300000166016600000000000000000a72112403109b03b01b8c08000a003c009f41010000001a001a001a0b0b0432197f000000e000000500022d0d0d5a5f4150324b0166,
  0x167016700000000000000029253f56b13203bf6a1c37c4c01d6007800a348010000009a0069002e05050323197f0000000000000008021e10103c4b4b3c82410167,
  0x16801680000000000000000000000000000000000080000008c003c003441010000008c001700170f0f0032147f0000000000000001017d0d0d30171730175f0168,
  0x16901690000000000000000024200a002001a00a00bb04400a80046003c47010000008d007300270a060032147f000000000000000101be0e0e3232323232320169,
  0x169016a0000000000000000024642aa82001b00a20bf8440a05009600a847010000008d007300270a060032147f0000000000000002024b0e0e505050505050016a,
  0x16b016b0000000000000006c246800002401a4082433044018b0050003a41010000000c0073002f05020332147f000000000000000101ff0a0e323719322846016b,
  0x16b016c0000000000000006c246800002401a4082433054036c006e009041010000000c0073002f05020332147f000000000000000202780a0e464b2d463c5a016c,
  0x16b016d0000000000000006c246848802401a408243705405e2008c010941010000000c0073002f05020332147f0000000000000003032d0a0e5a5f415a506e016d,
  0x16e016e00000000000000044242000002411a0080033044020d0028004541010000009b004b004b02020132147f000000590058001001ff0a0a374a20554023016e,
  0x16e016f00000000000000044242000802411a4080037044010e00aa00aa4101000000290021002102020132147f000000e200000014023c0a0a4b5e34696837016f,
  0x16e017000000000000000044242100802411a00b00b704400e200b400aa49010000005d0021002102020132147f000000e300000200023c0a0a4b72346954370170,
  0x171017100000000000000064246985802411a50820b704c00ea006400aa470100000005004500210c020532281f000000e3000000110219050a412d37825a640171,
  0x172017200000000000000044242100002411a00800b30440057003c007449010000005d002100210c0c043214bf00000000005d004002e10a0a412861371e2b0172,
  0x173017300000008000000029242800106001ae4c003041201a5003c003c41010000007d004500450e0e0523287f000000fa00000004012d0f0f1e28323c4b2d0173,
  0x173017400000008000000029242800106001ae4c00304120451006e009348010000008e004500450e0e0523287f000000fa00000020022d0f0f323c32645f410174,
  0x17301750000000800000003b246804906045ae4c243441204020096012c410100000099001600160e0e0523287f000000fa0000000c032d020f506e6450875f0175,
  0x1760176000000000000000000000000000000000000000003b8003c003c410100000087001d001d0a0a052328ff000000e90000001001030d083c231e5037280176,
  0x1760177000000000000000296669a3082000ad9f203c40007e900780093410100000087001d001d0a0a052328ff000000e90000002002030d08503732644b3c0177,
  0x1760178000000000000000296669a3882000ad9f203c400157c00a0012c410100000087001d001d0a0a052328ff000000e90000003003030d085a5f468287500178,
  0x1790179000000000000000a864699588b880a52cb89440108fc00aa0122450100000005001d001d0f0f052350ff000000000000003003030505643232c864500179,
  0x17a017a000000000000000a8646919883880a42c38b704106d600b40122410100000073001d001d0f0f052350ff0000000000000c0003030e0ec86432643250017a,
  0x17b017b000000000000000a8646991983880ad2c38b4401080200be0122470100000087001d001d0f0f052350ff000000000000042003030808964b32964b50017b,
  0x17c017c00000008000000057276112907145a93b3abd41e0190008c012c40010000001a001a001a0f0f055a78fe0000000000000c0003030d0f826e6e5a5050017c,
  0x17d017d00000008000000057276112907145a93b3abd41e025800c8012c41010000001a001a001a0f0f055a7800000000000000030003030d0f6e826e505a50017d,
  0x17e017e0000000000000006c246918802410a42c38b705c0dc001c2014f410100000002000200020f0f050078ff000000000000030003030a0a8c965a5a6464017e,
  0x17f017f000000000000000a92469d59068a0af6cbe94492251c015e014f400100000046004600460f0f050078ff000000000000000c030304045a645a8c9664017f,
  0x18001800000000800000006e24697c9069a0af6c3e37496081102bc015443010000004c004c004c0f0f050078ff0000000000000108032d020f5a965f5a96690180,
  0x181018100000000000000000f72192c0b908a93b19bc40c000b001e012c420100000020002000200f0f056478ff0000005b005b000303030d086464646464640181,
  0x182018200000000000000029e7ad9ac4b988bc3f5abdc0d026000aa012c4004020c002e002e002e0f0f050078ff000000000000014403030d0d3296963296320182,
  0x1000001830183000000000000000a92620c2002101a01806d870000660028004043010000004b0041004107010332141f0000000000000004012d0b0b372d1f4044370183,
  0x2000001830184000000000000000a92620c2002101a01806d870003ca006e008e43010000004b0041004107010332141f0000000000000014022d0b0b41372455594b0184,
  0x3000001830185000000010000000a92668c7802101a51826dc7100c1c00dc010743010000004b0041004107010332141f0000000000000018032d040b554b38696d5f0185,
  0x4000001860186000000000000000a93620c0152821ba4cc410e81003e0032003e4501000000590042004208050332141f0000000000000040012d09092c3a3d2c3a2c0186,
  0x5000001860187000000000000000a936a8c01528a1be4cc410e8100dc005a008e4501000000590042004208050332141f0000000000000140022d0109344e51344e400187,
  0x6000001860188000000020000000a936e8c49528a1be4ce614e9902260078010b4501000000590042004208050332141f0000000000000144032d010947686c47684c0188,
  0x7000001890189000000000000000552e2080002c11ac0c803324400340028003f4101000000800043004305020332141f0000000000000100012d0a0a383d283533350189,
  0x800000189018a0000000000000007d2e2080102c11ac0c803324400e60050008e4101000000800043004305020332141f0000000000000200022d0a0a4c5132444240018a,
  0x900000189018b000000040000000fd6e68c8902c15ac0ca037254034d00aa01094101000000800043004305020332141f0000000000000300032d080a656f3c585654018b,
  0xa0000018c018c000000000000000123c2000002047a80800306000014001e003145010000007800330033040403320f7f000000000000004001ff02001e1e3c1e3728018c,
  0xb0000018c018d000000000000000123c2000002047a8080030600009b003c007745010000007800160016040403320f7f000000000000008002780200282850324b37018d,
  0xc0000018c018e000000000000000123c2000802047a808003460000f9007800f345010000007800160016040403320f7f000000000000000c032d02003c3264467855018e,
  0xd0000018f018f000000000000000212e20d0003003a02a9c33e0000c80032003245010000008d006d0056050200320f7f000000000000000101ff000028231f282d3b018f],
  [0xe0000018f0190000000000000000ed2e60d0803813a02a9c37e05013b0064009045010000008d006d0056050200320f7f0000000000000008027f0a003c37473c554f0190,
  0xf00000191019100000000000000000000000000000000000000000016001e0027400100000032003d003d030303320f7f000001150000001001ff06062919192919250191,
  0x1000000191019200000000000000029243042822201a80c0034c0000ff0064008640010000006500440044030303320f7f0000011500000008022d060633374133554d0192,
  0x1100000193019300000000000000008242212003003e0281c38010005f0032003541010000003e0016004f05050332147f000000000000000401eb0c0c22282d22412d0193,
  0x1200000193019400000000000000008242212003003e0281c380100131005a007f41010000003e0016004f05050364147f000000000000000802780c0c313c3c31553c0194,
  0x1300000193019500000000000000008242212803003e0281c3c01001a4008c010641010000003e0016004f05050332147f000000000000000c032d0c0c4f5f464f78500195,
  0x1900000196019600000000000000001262142002101a08a0370500000c001400384301000000660026001e0f0f0332147f000000f50000010001ff030b463237231e280196,
  0x1b0000013b01970000000000000000126a142802101a08a03745200091005a01024301000000650026001e07060332147f000000f500000300034b030b697d5a41463c0197,
  0x24000001980198000000000000000a82468c5206803a768bc33410013b005a004641010000007d00680068010101321e1f0000000000000004012d05051e1e3a287d430198,
  0x25000001980199000000000000000ad2468cda06883a76cbc37411040100a000ad41010000007d00680068010101321e1f0000000000000008022d050532413a3ca5610199,
  0x260000019a019a00000000000000028646885002001b768bc33c10023a0032004647010000002b00050005010101321e1f0000000000000010012d0805582a1e762a1e019a,
  0x270000019a019b0000000000000002864688d802001b768bc37c1005d7008200ad47010000002b00050005010101321e1f0000000000000020022d08058a2f1ea8343c019b,
  0x2d0000019c019c000000000000000000000000000000000001000000220014002d4303020f008e003d003d030300320f7f0000000000000400017806062d1d242d1d28019c,
  0x2e0000019c019d0000000000000000027210282210ba00b82f450000410032009443030211008e006b006b030300320ffe000000de00000800022d0b06694f24553b3c019d,
  0x2f0000019c019e0000000000000001035210282214ba80b02f440000e9005a009442030213006e00440044030300320f00000000de00000104022d0206325e42325e46019e,
  0x350000019f019f00000000000000000000000020000000000000000037001e003142010000003700760076030303320f1f0000005e00000040017802062a1e462a1e1e019f,
  0x360000019f01a000000000000000011343002822843a88800344200181007800a642010000007f002e002e030303320ffe000000f500000410022d020666502866504601a0,
  0x37000001a101a100000000000000001362012003801e0289c3800000270028008e48010000000a00350032060500640a7f000000000000004002c80c0c5a2d5f462d3c01a1,
  0x38000001a201a20000000000000006c242000002411a40c84330c50127004600424501000000290021002105020032147f000000000000004001be0a0a1e3c5523413701a2,
  0x39000001a201a30000000000000006c242000a02491b40c84378d5014f006e00ad4501000000290021002105020032147f0000000000000080024b0a0a32557337695501a3,
  0x3a000001a401a400000000000000000262042002101a00803d05000021002800374901000000220022002207060032147f000000ef0000010001be0b0b353e232d232d01a4,
  0x3b000001a401a500000000000000000262042802101a00803d4500005d0032009e46020215007a007a007a07060032147f000000ef00000200024b0b0b4e5755463c4601a5,
  0x3c000001a601a600000000000000004242000002411a0080033044003f001e004146020216009f0072003c0b020032147f000000000000000101be0a0a3e392230304c01a6,
  0x3d000001a601a70000000000000006c246806802411a588a037044012b005a00a646020217009f0072003c0b020032147f0000000000000002024b040a525c2744536f01a7,
  0x40000000be01a800000000000000029372010b42803a82ede34e0500cb007800a946010000005c0035006505050464147f0000000000000080022d0000423c7342644b01a8,
  0x41000001a901a90000000000000001125213269300ba02b1830408000c0028004646010000008a0054006a0b0b02321e7f0000000000000001017d02072c3c4622325a01a9,
  0x42000001a901aa00000000000000013252132e9300ba02b18344080096007800ae46010000008a0054006a0b0b02321e7f0000000000000002023c0207365a502c509601aa,
  0x43000001ab01ab0000000000000002126201020b801a02ace316050037002800464501000000070067003208050000147f000000000000004001be0000382c552c423701ab,
  0x44000001ab01ac00000000000000029362010a0b881a02ade37605014d007800a8450100000007006700380805008c147f0000000000000080023c0000603669544c4101ac,
  0x49000000c801ad00000000000000000a52512a5310bb82b1934c08002c005a00ad46010000001a001a001a0b0b0423197f0000000000000500022d07076969693c3c3c01ad,
  0x4b000000c601ae000000000000000122d2710a42047b80b0034c080111005a00b14401000000990069000f04040323147f0000000000000008021e0210346947347d6401ae,
  0x4c000001af01af00000000000000001352102302003b82a9c30e0400270032003e470100000033001400070505043214bf000000000000004001be0000252a552a373101af,
  0x4d000001af01b000000000000000001356102b02003b82a9c34e1401b60064009e4701000000800014002f0505043214bf0000000000000080024b00003b407040524701b0,
  0x52000001b101b100000000000000000a72112403009b03b01b8c0800060014003942010000001a001a001a0f0f0432197f000000e00000010001780d0d32412d321e2d01b1,
  0x54000001b201b2000000000000000312426003c2003b2ca8430c3000c000280042460100000033006a000105050032147f000000000000004001e1100329294a2f3f3f01b2,
  0x55000001b201b30000000000000003924a600bc2003b2ca8434c30017c006400a8460100000033006a000105050032147f0000000000000002023c10033d4754435d6701b3,
  0x58000001b401b400000000000000000e769a3603008a51b22b8408025d0032003c4301000000860055001a0a0a003214ff000000e90000001001ff0d0856181756183901b4,
  0x59000001b401b500000000000000028e769a3e83008a51b22bc408074e008200af4301000000860055001a0a0a003214ff000000e900000410025a0d08744f2174594301b5,
  0x5c000001b601b600000000000000000242981082003a50c801040800960032003a45010000009b004500050f0f0032147f000000000000001001ff05052d0a0a5f503201b6,
  0x5e000001b701b700000000000000000a7211244b80bb03f1bb8c090082003c003e490100000065006f002b0f0f0032197f00000000000004000191110d5a463c2d191401b7,
  0x60000001b801b80000000000000000027211240a801a26b02b864400f4003c006e4901000000840020001e0f0f048c28fe00000000006e000101820000410f1e05056401b8,
  0x66000001b901b9000000000000000123c2000042047b8080030e00001300320090440100000091004d003304040323147f0000011500000004021e02002a5c5b2d414c01b9,
  0x6c000001ba01ba00000000000000000252702a52003b42b0034c0c0438006400aa460100000097002e002e0b0b00321e7f0000000000000410026410076c5c236c5c3201ba,
  0x6d000001bb01bb000000080000000a9246884106001af48a43041200cd0046003c410100000018000800080e010532287f0000000000000004012d040f2d282a2d463a01bb,
  0x6e000001bb01bc000000080000000a9246884106001af48a4304120230008c0090410100000018000800080e010532287f0000000000000008022d040f373252415a4401bc,
  0x6f000001bb01bd000000080000000ad24e8c4906a01af4ca43441203b600be012c410100000018000800080e010532287f000000000000000c032d040f5550665f826c01bd,
  0x70000001be01be000000000000000ac246800402801a76f3a33605041a003c004e440100000052002f00350f0f0532281f000000ea00ea00010132000055280528558701be,
  0x73000001bf01bf0000000000000002824e84034a881a40ce43069100ca0046003941010000009e002700500f0f0332191f0000000000000004014b010128233c28462801bf,
  0x74000001bf01c0000000000000000a864ec44b4e881a40fe43469d021c007800b841010000009a0027005008050332191f0000000000000104022d080146735a466e4601c0,
  0x7a000001c101c100000000000000028246880002001a508a41041401ef0050004245010000009f002d002d050505321e7f0000000000000010018c04042a26204e484401c1,
  0x7b000001c101c200000000000000028246884802001a508a4144140bb800c800b845010000009f002d002d050505321e7f0000000000000020023c040448442f76706c01c2,
  0x7f000001c301c30000000000000002924b442222a03bc8e8430c200078005000424601000000330061000409030532147f000000f50000001001780603371e415a322801c3,
  0x80000001c301c4000000000000000a924fe42a22a03bc8ea434c300267008200af4601000000330061000409030532147f000000f500000020022d10034b3c5f6e5a4601c4,
  0x81000001c501c5000000000000000a824fc0024a883b48ee030ea100e60046003c41010000008f0057006b080800640a7f0000011900000004018c0103283d32283d3001c5,
  0x82000001c501c6000000000000000a924fc44a4a883b48ee034ea101bc008200ac41010000008f0057006b08080032147f0000011900000008024b0103415655416a5301c6,
  0x83000001c701c700000000000000001262042a02903a0880254500010e008c009f43010000001a001a001a07070532197f000000000000000802c80b0b485a2e48644a01c7,
  0x86000001c801c800000000000000054342102202411a00800b3044004600280042410100000029007200210c0c0132147f000000000000004001be0a0a3d314238313101c8,
  0x87000001c801c900000000000000054342102a02411a00800b704400f0007800a1410100000029007200210c0c0132147f0000000000000080024b0a0a56455b4c454501c9,
  0x8c000001ca01ca00000000000000044246800002011a8082033044028a00640045410100000029000b00210f0f0532197f00000000000004000119020a783c3232142d01ca,
  0x8e000001cb01cb0000000000000000026204a002101a00a06fb14401f90064004348010000002b0075007507010532147f000000f60000000401780e0b3c3e28323e3c01cb,
  0x8f000001cb01cc000000000000000a826684a802981a40e26ff145054b00dc00ad48010000002b0075007507010532147f000000f600000104023c0e0b555c3c4b5c5a01cc,
  0x91000000d701cd0000000000000002d25b748b42a83b81ec437c490154006e00b344010000007c002e002e05050323147f000000d900000044022d0e10552d7d41784601cd,
  0x5101ce00000000000000000642132c83000e038183c40007080078010c4701000000940005002a0a0a003214ff000000e900000300031e080c5a823c73464601ce,
  0x6c01cf000000000000000ad256960882883a76ebe37605057800aa00b449010000000d000c001401010032147f0000011700000003021e00005f50325f556e01cf,
  0x6f01d0000000000000000ad64e8cdb06883a76cbc374110b0c00f0010c4701000000780074001f05010532147f000000000000000c031e0504373728828c7301d0,
  0x7201d10000000000000002926e942a02983acbc2254500050600c800bb4101000000900066002207070032147f0000000000000020021e0b0b326e327d646401d1,
  0xef01d2000000000000000a8246812803883f46dfc3c801056a00b4010e420100000048004e004e08080032193f000001420000000c031e0c0c555f5f437b4b01d2,
  0xf001d3000000000000000a82468008128a3b64d6e14c0102a800a0010e4001000000480031003108080032193f0000014300000300031e09095f7d53435f4b01d3,
  0xaf01d4000000000000000322f211284a845aa7f03bc605017c0096011148010000006900200037060404320a1f0000000000000600031e02117378505f325501d4,
  0xc101d500000000000000010352142822047a80b0254400020300be00b4430100000077006e000303030032147f0000010900000008021e020638745f564c5601d5,
  0x8501d600000000000000028263042802101a80a867471000ff006400b84301000000220066006605050023231f0000000000000020022d0b0b413c5f826e4101d6,
  0x8501d700000000000000028242008802001a00a84376540103005000b84101000000730051005105050023231f0000000000000200022d0e0e5f82416e3c4101d7,
  0xcf01d80000000000000003934fcc5a02a47bd8ca434c0001a900c800b346010000005a0008003403030332147f0000000000000020021e02044b2d5f7d5f4b01d8,
  0xdc01d9000000000000000a824688c802001a518a03f0500b5e00fa010945010000002f0051000c05050532147f000000000000000c0332040e3c465050826e01d9,
  0x8901da00000000000000000a52512c43002a82b1e374000154005a010c4001000000940058005b0a0a003214ff0000000000000300031e00004b875a46505501da,
  0x11801db00000000000000029a7f956c1bb8bbc3f69bce89020800a0010348010000009a005000500b0805231400000000000000000c032d010d734150417d4401db,
  0x12b01dc00000000000000028646895882001f5283914c000d48008c00b847010000009f002a00050a0a0032147f000000f200000810023c0805964b2891373c01dc,
  0x16301dd00000000000000028a56d02a1388bb40f2037c09042a00dc0107440100000077002e002e0b0b0423197f000000f700000810032d070787412d87642d01dd,
  0x16901de0000000000000000025211aa12801b03b18bf844010a008200a8480100000082005100510a06003214fe0000000000000080024b070e46506e46504601de,
  0x1df01df00000000000000000252512053002e03a18384000003001e009a40060218001a001a001a0b0b003214ff0000000000000140022d070c4d5f5b4d323201df,
  0x92000001e001e000000000000000000b72192c4b908a13b1ffc40c0003001e012242010000001a001a001a0f0f058c50ff000000000000042003030d0d824b5f824b4b01e0,
  0x93000001e101e100000000000000000b72192c4b908a13b1dbf40c0003001e012249010000001a001a001a0f0f058c50ff000000000000050403030d0d69695069695001e1,
  0x94000001e201e200000000000000000b72192ecb908b37b1dbcc0c0003001e012241010000001a001a001a0f0f058c50ff000000000000010803030d0d467d73467d4b01e2,
  0x95000001e301e300000008000000029e46996906020af6c3cb74921aae021c015448010000008c002e002e0f0f050078ff000000000000030003030f0864965a78786401e3,
  0x96000001e401e40000000800000002da4691c906c80af6c38b74d70d2001a4015446010000008c002e002e0f0f050078ff000000000000030003030f0a78966464785a01e4,
  0x1e501e5000000000000000a8646c84a96021b648a214c1010cc00aa012c450100000031001200120f0f05640a7f0000000000000300030308096a824d6a5a5b01e5,
  0x1e601e6000000000000000a824691da0a880ac2c38b440110680172014f480100000070007000700f0f050078ff000000000000000c030300006e50646ea06e01e6,
  0x1e701e7000000080000000bb256514b17104a82b3cb441a1d4c01c201544402021d008c002e002e0f0f050078ff000000000000000303030f0778645a78649601e7,
  0x1e801e800000000000000000a72112c03109a01b02bd40803580096012c42010000001a001a001a0f0f056478fe0000000000000c0003030d0d824b5578467801e8,
  0x1e901e900000000000000044362100002c10a00801b3044001f002800f041010000005d005d005d0602053228ff0000000000000001031e0a0a50505050505001e9,
  0x1e901ea00000000000000044362102802d18a01b01bf04c000e001e012c41010000005d005d005d060205320aff000000000000000303030a0a64646464646401ea,
  0x1eb01eb000000000000000a925bf52b5b882bcaf1837c0901f90096012c44010000007b007b007b0f0f050078ff0000000000000240030310105a877d5a5a4601eb,
  0x1ec01ec00000000000000000262142802100a00903d450000150014012c4302021e001e001e001e0f0f036478ff0000009d009d0003032d0b0b64646464646401ec,
  0x1ed01ed000000080000000ffe7ffdef175a0afff3eff75e0c80014001684812021f0079007900790f0f050078ff00000000000000030303000078787878787801ed,
  0x72000100c900c90000000000000000000000000000000000000000003200320076441c01ee001a001a001a0f0f003228ff000000000000010402e10d0d30483030483001ee,
  0x72000200c900c90000000000000000000000000000000000000000003200320076441c01ee001a001a001a0f0f003228ff000000000000010402e10d0d30483030483001ef,
  0x72000300c900c90000000000000000000000000000000000000000003200320076441c01ee001a001a001a0f0f003228ff000000000000010402e10d0d30483030483001f0,
  0x72000400c900c90000000000000000000000000000000000000000003200320076441c01ee001a001a001a0f0f003228ff000000000000010402e10d0d30483030483001f1,
  0x72000500c900c90000000000000000000000000000000000000000003200320076441c01ee001a001a001a0f0f003228ff000000000000010402e10d0d30483030483001f2,
  0x72000600c900c90000000000000000000000000000000000000000003200320076441c01ee001a001a001a0f0f003228ff000000000000010402e10d0d30483030483001f3],
  [0x72000700c900c90000000000000000000000000000000000000000003200320076441c01ee001a001a001a0f0f003228ff000000000000010402e10d0d30483030483001f4,
  0x72000800c900c90000000000000000000000000000000000000000003200320076441c01ee001a001a001a0f0f003228ff000000000000010402e10d0d30483030483001f5,
  0x72000900c900c90000000000000000000000000000000000000000003200320076441c01ee001a001a001a0f0f003228ff000000000000010402e10d0d30483030483001f6,
  0x72000a00c900c90000000000000000000000000000000000000000003200320076441c01ee001a001a001a0f0f003228ff000000000000010402e10d0d30483030483001f7,
  0x72000b00c900c90000000000000000000000000000000000000000003200320076441c01ee001a001a001a0f0f003228ff000000000000010402e10d0d30483030483001f8,
  0x72000c00c900c90000000000000000000000000000000000000000003200320076441c01ee001a001a001a0f0f003228ff000000000000010402e10d0d30483030483001f9,
  0x72000d00c900c90000000000000000000000000000000000000000003200320076441c01ee001a001a001a0f0f003228ff000000000000010402e10d0d30483030483001fa,
  0x72000e00c900c90000000000000000000000000000000000000000003200320076441c01ee001a001a001a0f0f003228ff000000000000010402e10d0d30483030483001fb,
  0x72000f00c900c90000000000000000000000000000000000000000003200320076441c01ee001a001a001a0f0f003228ff000000000000010402e10d0d30483030483001fc,
  0x72001000c900c90000000000000000000000000000000000000000003200320076441c01ee001a001a001a0f0f003228ff000000000000010402e10d0d30483030483001fd,
  0x72001100c900c90000000000000000000000000000000000000000003200320076441c01ee001a001a001a0f0f003228ff000000000000010402e10d0d30483030483001fe,
  0x72001200c900c90000000000000000000000000000000000000000003200320076441c01ee001a001a001a0f0f003228ff000000000000010402e10d0d30483030483001ff,
  0x72001300c900c90000000000000000000000000000000000000000003200320076441c01ee001a001a001a0f0f003228ff000000000000010402e10d0d3048303048300200,
  0x72001400c900c90000000000000000000000000000000000000000003200320076441c01ee001a001a001a0f0f003228ff000000000000010402e10d0d3048303048300201,
  0x72001500c900c90000000000000000000000000000000000000000003200320076441c01ee001a001a001a0f0f003228ff000000000000010402e10d0d3048303048300202,
  0x72001600c900c90000000000000000000000000000000000000000003200320076441c01ee001a001a001a0f0f003228ff000000000000010402e10d0d3048303048300203,
  0x72001700c900c90000000000000000000000000000000000000000003200320076441c01ee001a001a001a0f0f003228ff000000000000010402e10d0d3048303048300204,
  0x72001800c900c90000000000000000000000000000000000000000003200320076441c01ee001a001a001a0f0f003228ff000000000000010402e10d0d3048303048300205,
  0x72001900c900c90000000000000000000000000000000000000000003200320076441c01ee001a001a001a0f0f003228ff000000000000010402e10d0d3048303048300206,
  0x72001a00c900c90000000000000000000000000000000000000000003200320076441c01ee001a001a001a0f0f003228ff000000000000010402e10d0d3048303048300207,
  0x72001b00c900c90000000000000000000000000000000000000000003200320076441c01ee001a001a001a0f0f003228ff000000000000010402e10d0d3048303048300208,
  0x15f015f0000000000000000024211a002113a36a1a336440008001e009340040209003b003b003b0b060032197f000000f300f30001022d09094646464646460209,
  0x15f015f0000000000000000024211a002113a36a1a336440008001e009341040209003b003b003b0b060032197f000000f300f30001022d0a0a464646464646020a,
  0x15f015f0000000000000000024211a002113a36a1a336440008001e009348040209003b003b003b0b060032197f000000f300f30001022d0e0e464646464646020b,
  0x182018200000000000000029e7ad9ac4b988bc3f5abdc0d026000aa012c4004020c002e002e002e0f0f050078ff000000000000010803030d0d14b49614b432020c,
  0x182018200000000000000029e7ad9ac4b988bc3f5abdc0d026000aa012c4004020c002e002e002e0f0f050078ff000000000000042003030d0da0465aa04632020d,
  0x182018200000000000000029e7ad9ac4b988bc3f5abdc0d026000aa012c4004020c002e002e002e0f0f050078ff00000000000000c003030d0d5a5fb45a5f32020e,
  0x2d0001019c019c000000000000000000000000000000000001000000220014002d4503020f008e003d003d030300320f7f0000000000000400017806062d1d242d1d28020f,
  0x2d0002019c019c000000000000000000000000000000000001000000220014002d4003020f008e003d003d030300320f7f0000000000000400017806062d1d242d1d280210,
  0x2e0001019c019d0000000000000000025618282200ba50ba2f440000410032009445030211008e006b006b030300320ffe000000de00000020022d0406553b24694f3c0211,
  0x2e0002019c019d000000000000000006521a282200ba00b82f440000410032009440030211008e006b006b030300320ffe000000de00000410022d08065f45245f453c0212,
  0x2f0001019c019e0000000000000001035210282214ba80b02f440000e9005a009442030213006e00440044030300320f00000000de00000104022d0206325e42325e460213,
  0x2f0002019c019e0000000000000001035210282214ba80b02f440000e9005a009442030213006e00440044030300320f00000000de00000104022d0206325e42325e460214,
  0x3b000001a401a500000000000000000262042802101a00803d4500005d0032009e49020215007a007a007a07060032147f000000ef00000200024b0b0b4e5755463c460215,
  0x3c000101a601a600000000000000004242000002411a0080033044003f001e004141020216009f0072003c0b020032147f000000000000000101be0a0a3e392230304c0216,
  0x3d000101a601a70000000000000006c246806802411a588a037044012b005a00a641020217009f0072003c0b020032147f0000000000000002024b040a525c2744536f0217,
  0x1df01df00000000000000000252512053002e03a18384000003001e00b640060218001a001a001a0b0b003214ff0000000000000140022d090c6b69566b41320218,
  0x1df01df00000000000000000252512053002e03a18384000003001e00b640060218001a001a001a0b0b003214ff0000000000000140022d0a0c6b69566b41320219,
  0x1df01df00000000000000000252512053002e03a18384000003001e00b640060218001a001a001a0b0b003214ff0000000000000140022d0e0c6b69566b4132021a,
  0x1df01df00000000000000000252512053002e03a18384000003001e00b640060218001a001a001a0b0b003214ff0000000000000140022d020c6b69566b4132021b,
  0x1df01df00000000000000000252512053002e03a18384000003001e00b640060218001a001a001a0b0b003214ff0000000000000140022d0b0c6b69566b4132021c,
  0x101e701e7000000080000000bb256514b17104a82b3cb441a196402b201544402021d001a001a001a0f0f050078ff000000000000000303030f0764785a647896021d,
  0x1ec01ec00000000000000000262142802100a00903d450000340028012c4302021e0020002000200f0f036478ff0000009d009d00c0032d020b4b787f4b6764021e,
  0x1ed01ed000000080000000ffe7ffdef175a0afff3eff75e0c80014001684812021f0079007900790f0f050078ff000000000000000303030101787878787878021f,
  0x1ed01ed000000080000000ffe7ffdef175a0afff3eff75e0c80014001684812021f0079007900790f0f050078ff0000000000000003030302027878787878780220,
  0x1ed01ed000000080000000ffe7ffdcf175a0afff3eff75e0c80014001684812021f0079007900790f0f050078ff0000000000000003030303037878787878780221,
  0x1ed01ed000000080000000ffe7ffdef175a0afff3eff75e0c80014001684812021f0079007900790f0f050078ff0000000000000003030304047878787878780222,
  0x1ed01ed000000080000000ffe7ffdef175a0afff3eff75e0c80014001684812021f0079007900790f0f050078ff0000000000000003030305057878787878780223,
  0x1ed01ed000000080000000ffe7ffdef175a0afff3eff75e0c80014001684812021f0079007900790f0f050078ff0000000000000003030306067878787878780224,
  0x1ed01ed000000080000000ffe7ffdef175a0afff3eff75e0c80014001684812021f0079007900790f0f050078ff0000000000000003030307077878787878780225,
  0x1ed01ed000000080000000ffe7ffdef175a0afff3eff75e0c80014001684812021f0079007900790f0f050078ff0000000000000003030308087878787878780226,
  0x1ed01ed000000080000000ffe7ffdef175a0afff3eff75e0c80014001684812021f0079007900790f0f050078ff0000000000000003030309097878787878780227,
  0x1ed01ed000000080000000ffe7ffdef175a0afff3eff75e0c80014001684812021f0079007900790f0f050078ff000000000000000303030a0a7878787878780228,
  0x1ed01ed000000080000000ffe7ffdef175a0afff3eff75e0c80014001684812021f0079007900790f0f050078ff000000000000000303030b0b7878787878780229,
  0x1ed01ed000000080000000ffe7ffdef175a0afff3eff75e0c80014001684812021f0079007900790f0f050078ff000000000000000303030c0c787878787878022a,
  0x1ed01ed000000080000000ffe7ffdef175a0afff3eff75e0c80014001684812021f0079007900790f0f050078ff000000000000000303030d0d787878787878022b,
  0x1ed01ed000000080000000ffe7ffdef175a0afff3eff75e0c80014001684812021f0079007900790f0f050078ff000000000000000303030e0e787878787878022c,
  0x1ed01ed000000080000000ffe7ffdef175a0afff3eff75e0c80014001684812021f0079007900790f0f050078ff000000000000000303030f0f787878787878022d,
  0x1ed01ed000000080000000ffe7ffdef175a0afff3eff75e0c80014001684812021f0079007900790f0f050078ff000000000000000303031010787878787878022e,
  0x1ed01ed000000080000000ffe7ffdef175a0afff3eff75e0c80014001684812021f0079007900790f0f050078ff000000000000000303031111787878787878022f]]

end Verif.Data
