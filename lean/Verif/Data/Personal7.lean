/-
Generated by tools/gen_personal.py from resources/bin/personal.
-/
namespace Verif.Data

/-- resources/bin/personal/personal_sm, 961 pieces of 84 bytes -/
def personal_sm : List Nat := List.flatten [
  [0xff0000000000000000000000000000000000000000,
  0x10000000882e0040000119a08843987210045004600400301000000000022414107010346141f0000000000000100012d030b41412d31312d0001,
  0x10000000882e0040000119a088439872100820064008e0301000000000022414107010346141f0000000000000500022d030b50503c3f3e3c0002,
  0x90000000882e0240800119a088639c73103e800c800ec03020000034b0022414107010346141f0000000000000600032d030b6464505352500003,
  0x20000000802c0840110839ee4c41106230055003c003e000100000000005e42420e010346141f0000000000000040012d0909323c412b34270004,
  0x20000000802c0840110839ee4c411062300be006e008e000100000000005e42420e010346141f0000000000000140022d09094150503a403a0005,
  0x120000000802c2ac09168f9ee4c6354633038900aa00f000030000034c005e42420e010346141f0000000000000300032d0209556d644e544e0006,
  0x40000000a22c0020000c09a40c4133261005a0032003f010100000000002c434302010346141f0000000000000010012d0a0a40322b41302c0007,
  0x40000000a22c0020000c09a40c413326100e10064008e010100000000002c434302010346141f0000000000000410022d0a0a50413a503f3b0008,
  0x240000000b26c2a20800c89a40c6537271035700a000ef01020000035c002c434302010346141f0000000000000c00032d0a0a69554e64534f0009,
  0x1d001e00270301000000000f321313030300460f7f000000000000000101ff060614142d231e2d000a,
  0x63004600480301000000000f3d3d3d030300460f7f00000000000000200278060619191e371432000b,
  0x803d410082010ba80b43f47200140006e00b2080100000000006e0e0e030300460f7f000000de00000600032d0206505a46322d3c000c,
  0x20001e002705010000000000321313030300460f7f000000000000004001ff03061414321e2328000d,
  0x64003c0048020100000000003d3d3d030300460f7f00000000000000200278030619192332192d000e,
  0x803cd040a2420ba88c43547200127006400b202020000038600614444030300460f7f000000f500000408032d0306502d4b285a41000f,
  0x803c008000004ba80841706210012001e003205010000000000914d33040403460f7f000000000000004001ff0200232338282d280010,
  0x803c008000004ba8084170621012c006e007a05010000000000914d33040403460f7f000000000000008002780200323247373c3f0011,
  0x803c008080004ba8084174621018b009600d805020000037b00914d33040403460f7f00000000000000c0032d02004646654b50530012,
  0x813e001000100ba00a5933e210023001e003306020000038c09373e32050500460f7f000000000000004001ff000023194823381e0013,
  0x813e005080100ba00a5937e3100b90046009105030000038d06373e32050500460f7f0000000000000080027f00004632613c51370014,
  0x803c008000025ba80841706210014001e003405010000000009613333040400460f7f000000f40000004001ff02001f1f461e3c280015,
  0x803c008080025ba8084174621017c0078009b05010000000006613333040400460f7f000000f400000080025a02003d3d64415a410016,
  0x902cca0020400bb4a86130720004500c8003a060100000000007f3d160e050046147f000000000000000401ff03033628372c3c230017,
  0x902cea00a0400bb4a86134720028a015e009d060100000000007f3d160e050046147f0000000000000008025a03034f4150455f3c0018,
  0x2920158031a00000000000000000000000000000000000000000000000812e0018001819a00c5938220003c002800700207000003b6061f0909060500460a7f000000ec0000008002be0c0c32325a2837230019,
  0x812e001880189ba00c593c220012c005000da02020000038f001f0909060500460a7f00000000000000c0034b0c0c505a6e375a3c001a,
  0x802c9a6010080bad0c61906200078003c003c0202000003900992080805050046147f0000011e0000001001ff04041e1428554b32001b,
  0x802c9a6490088bad0c619462001270064009e0202000003910092080805050046147f0000011e00000020025a0404372d416e644b001c,
  0x802c800010001ba888593372000460028003701010000000000374f260501034614fe000000000000000101eb0303282829342f37001d,
  0x802c800010001ba888593372000c80050008001010000000000374f260f0f034614fe000000000000000202780303373738433e46001e,
  0x822caa0490889bbfee7d37f300258008200e3010100000000007d4f260f0f034614fe0000000000000003032d0403554b4c575c5a001f,
  0x802c800050001ba0885933720005a0032003706010000000000374f26050103461400000000000000000401eb030328283228392e0020,
  0x802c800050001ba088593372000c3005a008006010000000000374f2605010346140000000000000000080278030337374139483d0021,
  0x822caa04d0889bb7ee7d37f30026c008c00e3060100000000007d4f26050103461400000000000000000c032d04034b55554d66510022,
  0xc02f0110001819a25f5bbb62d004b003c0071090100000000068462380606048c0abf000000510000000202961111413c23302d460023,
  0xc02f0110801899a25f5bbf62d0190008200d9090100000000006d62380606048c0abf0000005100000003031911115a5f3c49465f0024,
  0x902c0100210129e24841906300063003c003c050200000392094612120505004614bf000000f90000004001be09094132412829260025,
  0x902d0100a10129e248439463c00c7006e00b1020200000393004612120505004614bf000000f900000440024b09096451644b4c490026,
  0xc12f0130001819a25f5bbb62100370032005f0901000000000684ac38060604460abf000000510000000202aa1100192d14142d730027,
  0xc12f0130801899a25f5bbf6210078006400c40901000000000077ac38060604460abf00000051000000030332110032552d2d468c0028,
  0x803c008022004bb88ac170f20004b005000310601000000000f972727040400460f7f000000000000004001ff0203281e37232d280029,
  0x803c0080a2004bb88ac174f20022600a0009f06010000000009972727040400460f7f0000000000000080025a02034b415a46504b002a,
  0xc82e4040000109a08843107200036003200400101000000000032222207070346147f000002210000010001ff030b414b1e37322d002b,
  0xc82e4040000909a088431072000560050008a0101000000000001222207070346147f00000221000002000278030b4b552846413c002c,
  0xc82e4040800909a088439472000ba007800dd000100000000001b222207070346147f0000022100000300032d030b5a6e3255504b002d,
  0x882e104000030ba88cc3187200036001e00390001000000000906571b07030046147f000000570056000401be0b06372d19374623002e,
  0x882e104080030ba88cc31c72001270064008e0001000000000606571b07030046147f0000005700560018024b0b06503c1e505f3c002f,
  0x802c400000000ba089c310720012c0064003d06010000000000326e0e03030046147f000000000000040001be030637282d32373c0030,
  0x803c400082010ba889c354720007d0096009e06010000000000936e1303030046147f0000012700000140024b03064b5a5a3c41460031,
  0x802c0a0010001bad8861106200008001400350502000003b0099f470805050046147f000000ed0000104001ff04042d235f19370a0032,
  0x802c0a0490001bada86114620014d004600950502000003b1069f470805050046147f000000ed00001080023204044632783264230033,
  0x903d010030001bb80a5930e21002a0028003a020200000394097f653505050046147f000000d90000004001ff000028285a232d280034,
  0x903d0100b4001bb80a5934e3101400064009a020200000395067f650705050046147f000000d900000080025a00004141733c46410035,
  0xa22c0100100c09a80d413b26c00c4005000400201000000000f210d0605020046147f000000000000010001be0a0a3241373034320036,
  0xa22c0100900c8da80d413f26c02fe00aa00af01010000000006210d0605020046147f0000000000000200024b0a0a505f554e52500037,
  0x803c8a002208afac0c7d30ea101180032003d0501000000000980534805050046147f000000000000000401be01012d23462350280038,
  0x803c8a04a208afac0c7d34ea101400064009f0501000000000680534805050046147f0000000000000008024b0101463c5f3c69410039,
  0x852c000001002bea48419063000be00460046050100000000099a121605050546143f000000000000000401be090932463c2d4637003a,
  0x852c020081002bea484394630060e00be00c2050100000000009a121605050546143f0000000000000008024b090950645f506e5a003b,
  0xa22c000000040ba0094133260007c003c003c0101000000000921060b02020346147f000000000000004001ff0a0a28285a283228003c,
  0xa22c0200000c0ba00d613326000c8006400870101000000000621060b02020346147f000000dd0000008002780a0a32325a414141003d,
  0xa22c8a00a00c8fa40d61372e1021c008200e60101000000000021060b02020346147f000000dd00000030032d010a5a46465f5f5a003e,
  0xc0af011004190bb01b41b8e2c00c3005a003e0501000000000962271c08080346143f000000f80000010001c80d0d37695a0f1419003f,
  0xc0af011004190bb01b41b8e2c02350082008c0501000000000662271c08080346143f000000f80000020002640d0d4678691e23280040,
  0xc0af011084198bb01b41bce2c01e0009600e10502000003600062271c08080346143f000000f80000030003320d0d5f87782d32370041,
  0x802c8a0020088fa64c65386a100c30050003d0701000000000950633e08080346143f000000e60000000401b401012323233250460042,
  0x802c8a0020088fa64c65386a102c10096008e0701000000000650633e08080346143f000000e600000008025a01013c322d4664500043,
  0x802c8a04a0088fa64c653c6a1051400a000e30701000000000050633e08080346143f000000e60000000c032d010155413750825a0044,
  0x882ec04000010ba098431072000280046003c0301000000000052222207070346147f000000000000000401ff030b1e4628234b320045,
  0x882ec04000010ba09843107200040006400890301000000000052222207070346147f00000000000000080278030b2d5537325a410046,
  0x882ec04080010ba0984314720009b00aa00dd0301000000000052222207070346147f000000000000000c032d030b4664464169500047,
  0xe22cc04020040ba0a841b336001c7005a00430101000000000f2c401d09090546147f000000f50000040001be030a6432462328280048,
  0xe22cc040a0040ba0a841b7360022600a000b4010100000000062c401d09090546147f000000f500000800023c030a7850644146500049,
  0x882c0a25080809a74c651062000c80028003c050200000396090805450a0a03460f7f000000e50000001001ff04051e1e14645028004a,
  0x882c0a25080809a74c6510620041a00640089050200000397060805450a0a03460f7f000000e500000020027804052d2d23735f37004b,
  0x882c0a25880889a74c65146300bb8008c00df050200000398000805450a0a03460f7f000000e500000030032d040541372d827850004c,
  0x812c0000010039e2484310620012c006400520201000000000031123205050046147f000000000000004001be090941415a375532004d,
  0x812c8000c10039e248431462003b600aa00af0201000000000031123205050046147f0000000000000080023c0909505069466441004e,
  0x82af0310000419a24b61bb66c01680078003f0901000000000990140c02010046147f000001170000000101be0d0a28280f41415a004f,
  0x82af0310800c99aa4f61bf66c031100a000ac0902000003790390140c02010046147f000000dd00000020024b0d0a50641e6e4b5f0050,
  0x816c0138081008a0185938620003c001e00410701000000000994052a0a0a004614ff000000e90000010001be080c375f2d4623190051,
  0x816c0138881008a018593c6200258006400a30701000000000694052a0a0a004614ff000000e900000200023c080c4678465f3c320052,
  0x803c81c002424ba80841506210096005000840501000000000080273305040046147f0000010300000004022d02003e3a3c375a340053,
  0x802c00c000005ba80841506210188008c003e050100000000004d303204040046147f000000f40000000401be020023234b2d55230054,
  0x802c00c0a0005bb8084154e21035400b400a5050100000000004d303204040046147f000000f400000008022d02003c3c6e466e3c0055,
  0xa22c000040081ba00841b32600384006e004108010000000000735d2f05020046147f000000000000040001be0a0a462d2d372d410056,
  0xa22c0400c0081ba00841b726004b000aa00a608010000000000735d2f05020046147f0000000000000800024b0e0a5f464650465a0057,
  0x802cc80028080bb6ea5930f20012c005a0041060200000399098f3c010b0b0046147f000001190000000101be03033228193250500058,
  0x902cc800a8088bb6ee5934f20012c007800af06020000039a068f3c010b0b0046147f0000000001190005024b03036441324b69690059,
  0x822c0000280009a00841332600028001e003d060100000000098e5c4b09090546147f000000590058001001be0a0a192d2864411e005a,
  0x822c8400e80009b0084137260052d009600b8060100000000008e5c4b09090546147f0000005900580020023c0e0a2d5546b45f32005b,
  0xd0ad41002d010bb08b4930f2000010082003e060100000000091a1a1a0b0b0346147f000000000000010001be03072364501e231e005c,
  0xd0adc1003d090bb08b4930f20000100a0008e060100000000061a1a1a0b0b0346147f0000000000000200025a030737735f2d322d005d,
  0xd0adc100bd098bb08f5934f200195009600e106020000033e008282820b0b0346147f0000000000000300032d03074b826e3c413c005e,
  0x886c2b25284009b5086510e3008340370004d070100000000008505450a0a0046197f0000000000000010012d04052d1e46a02d23005f,
  0xc0af011000080fb01f41b8e2c01440064004202010000000009276c0f08080046147f000000000000040001be0d0d5a2b2a2d303c0060,
  0xc0af011080088fb01f41bce2c02f400a000a902010000000006276c0f08080046147f0000000000000800024b0d0d7349434649550061,
  0x822c1840000e0ba40c4133260004100280041000100000000007d4b3409090046147f000000000000000401e10a0a1919325a691e0062,
  0x822c1840808e0ba40c41372600258008200a6000100000000007d4b3409090046147f0000000000000008023c0a0a32324b7382370063],
  [0x812c003808100ab0085938a20006800320042000100000000006a092b0a0a004614ff000000000000004001be0c0c373764321e280064,
  0x812c003888100ab008593ca20029a007800ac000100000000006a092b0a0a004614ff0000000000000080023c0c0c50509646323c0065,
  0x88af414008010ba09943186200019002800410901000000000f8b222207070546147f0000037200000010015a0d0b2d3c2850283c0066,
  0x88af414088010ba099431c62404b000c800ba02020000039b008b222207070546147f0000000000000200022d0d0b4b7d37555f5f0067,
  0x802c0a40004a1baf4c65136200041002800400501000000000f041f4501010046147f000001020000001001be04043228235f32320068,
  0x802c0a44804a9baf4c651762001c20064009505020000039c03041f4501010046147f0000010200000020024b040450322d6e503c0069,
  0x802c8a0400088fa40c61306a101f20096009f050100000000005478070808004619000000000000000008022d01016e2357357832006a,
  0x802c0a0400088fa40c61306a101f6008c009f050100000000002759330808004619000000000000000800022d01016e234c4f6932006b,
  0x822d2b4080480ba74e7b37621028f0078004d090100000000000d0c1401010046147f0000011700000002012d00004b3c1e4b375a006c,
  0x902c402029000bb2ca5930f20000a003c0044060100000000001a1a1a0b0b0046147f000000e40000001001be03032d3c235f4128006d,
  0x902c4020a9000bb2ca5934f20005f007800ac060100000000001a1a1a0b0b0046147f000000e400000020023c030346553c785a41006e,
  0x802c8a4560000ba7487d33630047e006400450701000000000078451f05010546147f0000000000000010017805041e1e195f5550006f,
  0x822caa45f0488ba74c7d3763004b000be00aa0701000000000078451f05010546147f0000000000000008023c05042d2d287882690070,
  0xc12f0b10801819a74f7bbf669015a006e018b0901000000000083201e0606048c28fe0000000001000002021e00006923320505fa0071,
  0x882e414080010ba0984314620015e006400570101000000000090662207070046147f0000000000000010012d0b0b28643c7337410072,
  0x822c0a0090088baf4e7bb7671032000dc00ac05020000035d032771300101004614fe0000000000000002022d000050285a505f690073,
  0xa26c0000000409a008413326000500028003b010100000000000661210e020046147f000000eb0000010001e10a0a19463c46281e0074,
  0xa26c0000800409a008413726000fa0078009a010100000000000661260e020046147f000000eb00000110024b0a0a2d5f555f41370075,
  0xa22c8000400409a00841332600096003c0040000100000000091f29210c0c0046147f000000f30000000401e10a0a32233f3c432d0076,
  0xa22c8000c00409a008413726001860082009e000100000000061f29210c0c0046147f000000f300000008023c0a0a504144415c500077,
  0xe26c0130000408a019593b26001590050004405010000000009941e230909054614ff0000005b005a004001e10a0a374655372d1e0078,
  0xe2ef0130800408a019593f2640320006e00b606010000000000941e230909054614ff0000005b005a0080023c0d0a556473554b3c0079,
  0xc0af4110a0198bb81f5bbce2c0221008200a109010000000000656f2b08080046197f0000000000000800022d110d78645a412d28007a,
  0x803c104080424ba80c41fc6200230009600640301000000000350654403030046197f0000000000000004012d0206503769506e46007b,
  0x80af0502a0099bb01f413fa6c0196008c009f00010000000000576c0c0808004619fe0000000000000200022d0d0e5f735f233241007c,
  0x812c001880188fa00d593c220012c006e00ac0201000000000648090908080046193f0000014200000080022d0c0c555f69395341007d,
  0x802c00008108afe24d411462001bd008200ad0001000000000648313108080046193f0000014300000200022d090955645d395f41007e,
  0x802c1a44804a8ba40c65346a00226009600af0502000003570399683403030546197f0000000000000008022d0606463755647d41007f,
  0x832c0a04e00009a7487b376210374008c00ac050100000000037d53160505054614000000000000000044022d000046286e5f644b0080,
  0x64005a0028000100000000099b21210e0c0546057f000000000000004001ff0a0a140f50370a140081,
  0xb22c2214a04409b3487937a70092e028a00bd01020000035e039916160e0c0546057f0000000000000008022d020a643c514f7d5f0082,
  0xa22d0600c00019a00959b7270089800fa00bb010100000000035d4b0b02010546287f000000f300f30002022d0e0a5f553c5055820083,
  0x28001e0065060100000000099607070d0d004614ff0000010101120001022300003030303030300084,
  0x2be0183032500000000000000000000000000000000000000000000000802c0000000019a00a41306210041001e0041050100000000096b5b3205050046231f0000000000000400012d0000412d373237370085,
  0xa22c0000800419a00a41376710122006400b8010100000000005d0b0b05050046231f0000000000000002022d0a0a5f6e413c41820086,
  0x812c0018801019a00a593c63100f5005000b8020100000000005f0a0a05050046231f0000000000000080022d0c0c5f6e823c41410087,
  0x802c0000810039e24a413463100fa005a00b8000100000000003e121205050046231f0000000000000008022d09096e5f413c82410088,
  0x80ad011080100aa80b5b37624016d0050004f090100000000099458240a0a004614ff0000000000000100012d00004b5528463c410089,
  0xa22c082100040ba5084533260004b0028004701010000000000854b21090200461e1f0000000000000010012d0a05375a23642823008a,
  0xa22c082580040ba5084537260015e006400ad01010000000000854b21090200461e1f0000000000000020022d0a054673377d3c46008b,
  0xa22c080100040bad08453326000730032004705010000000000850421090200461e1f0000000000000010012d0a052d37375a501e008c,
  0xaa2c184580040bad0c45372600195008200ad05010000000000850421090200461e1f0000000000000008022d0a0546415069733c008d,
  0x802c0a85a0604bbf486574e32024e00b400b4060200000358007f2e4504040546231f0000000000000080022d02054b3c82416950008e,
  0x2bd01a0032400000000000000000000000000000000000000000000000832c0a00800889a74f7f3762111f800d200bd04010000000000522f1101010546281f000000ea00ea0002021900006e411e416ea0008f,
  0x803c0482802048a9184177670022a00aa010501010000000000512e2e0f0f052350ff0000000000000c000303020e7d5f5564555a0090,
  0x813c0098803048a908597c630020e00a0010502010000000000092e2e0f0f052350ff00000000000003000303020c5a7d64555a5a0091,
  0x803c0080812068eb4843f4630025800c8010502010000000000312e2e0f0f052350ff000000000000030003030209557d5a5a645a0092,
  0x400000000a22c2010004009a24859bf660002100b4003c010100000000093f3d3d0e020523287f000000eb00000004012d0f0f3232322d40290093,
  0x400000000a22c2010004009a24859bf66000a501900093010100000000063f3d3d0e020523287f000000eb00000008022d0f0f46464641543d0094,
  0x400000000a22c2a948068c9af4c79ff672083400dc010e050100000000008827270e020523287f000000eb0000000c032d020f6464505f865b0095,
  0x80af8b1485598cbf5f7bbfeec04c400c8013206030000034e007f2e2e0f0f050078ff000000000000030003030d0d5a9a825a6e6a0096,
  0x2bf005e032600000000000000000000000000000000000000000000000fffffffffffffffffffffffff00280028010e090100000000001c1c1c0f0f036478ff0000009d009d0003032d0d0d6464646464640097,
  0x10000000882e0040000119a01843986210040005a00400301000000000066414107010346141f0000000000000400012d0b0b41312d41312d0098,
  0x10000000882e0040000119a0184398621009e0078008e0301000000000066414107010346141f0000000000000410022d0b0b503f3c503e3c0099,
  0x90000000882e2240800119a018639c62103ed00b400ec0301000000000066414107010346141f0000000000000810032d0b0b645350645250009a,
  0x20000000892c0000010029ea484110621004f0032003e0201000000000012424205050346141f0000000000000040012d0909323c412b3427009b,
  0x20000000892c0000010029ea4c411063100be005a008e0201000000000012424205050346141f0000000000000140022d09094150503a403a009c,
  0x120000000892c0a209108a9ee4c6314631031b00aa00f00201000000000012424205050346141f0000000000000300032d0909556d644e544e009d,
  0x40000000a22c0840100c09ac0c4133263005f003c003f010100000000007d434302010346141f0000000000000004012d0a0a302c2b404132009e,
  0x40000000a22c0840100c09ac0c413327300fa006e008e010100000000007d434302010346141f0000000000000014022d0a0a3f3b3a505041009f,
  0x240000000a22c2a40900c89ac0c6137273037800e600ef010100000000007d434302010346141f0000000000000018032d0a0a534f4e64695500a0,
  0x823e000010581ba04e4b31621003c0050002b05010000000000773332050500460f7f000000000000000401ff00002d2314222e2300a1,
  0x823e000090589ba04e5b37621014500b4009105010000000000773332050500460f7f0000000000000080025a0000372d5a404c5500a2,
  0x802d018000005ba81b417062100d400460034050100000000006e330f040400460f7f000000000000000101ff02003824321e1e3c00a3,
  0x802d018080005ba81b4174621019800a0009e050100000000006e330f040400460f7f0000000000000002025a020060564632326400a4,
  0x803c404002080ba81c43d8620006c00640035000100000000099b3044030304460f7f000000000000040001ff02065028371e142800a5,
  0x803c404082088ba81c43dc6200164008c008900010000000006593044030304460f7f0000000000000800025a02066e375532233700a6,
  0x802cd00000000ba089c31072000550032003203010000000009610f44030304460f7f000000000000000401ff030628281e283c2800a7,
  0x802cd040c0000ba089c314720014f006e008c00010000000006610f44030304460f7f0000000000000008025a0306463c28465a4600a8,
  0x903c1080a2004bb88ac174f2002ee00b400f106010000000000972727040400460f7f00000000000000c0035a0203504682505a5500a9,
  0xe32c0018001409a0085933260007800320042010100000000090b230a0c0c0546147f000000e30000000101be0c0a38384326264b00aa,
  0xe32c0018801409a008593726000e1007800a1010100000000060b230a0c0c0546147f000000e300000002024b0c0a4c4c433a3a7d00ab,
  0x812e0018001819a00859382200014001e00290201000000000f1f09090f0f00460a7f000000000000004001be0c0c23233c0f281400ac,
  0x802f0110000819a25b43b8625001e001e002c0901000000000f8462380f0f048c0abf000000510000040001961111372d0f1c193200ad,
  0x812f0110000819a25b43b8621000a001e002a0901000000000f84ac380f0f04460abf000000000000000101aa110014280f0f1e5a00ae,
  0xc02f0110000819a25b43b8625000f001e0031080100000000006920370f0f04460a1f000000000000040001be111141281441142300af,
  0xc02f0190c00859aa5f43fc6250020003c008e08010000000000692037060404460a1f0000000000000800024b021169502855283700b0,
  0xc0bf011000004ba81b437862c001400140040030100000000009c301c04040046147f000000000000010001be020d2d46462d322800b1,
  0xc0bf019080004ba81b437c62c0096009600a5030100000000009c301c04040046147f0000000000000140024b020d465f5f464b4100b2,
  0x812c0010001019a00859b8220004e003c00380801000000000039090905010346147f000000000000010001eb0c0c2d412328283700b3,
  0x812c0018001819a00c59b82200085005000800901000000000039090905010346147f000000000000020002780c0c3c502d37374600b4,
  0x812c0218805899a00c59bc2200267008c00e602020000034a0039090905010346147f0000000000000300032d0c0c5a7337554b5a00b5,
  0xc82e4040800909a0884394720003a002800dd0301000000000083222207070346147f0000022100000c00032d0b0b645a325f504b00b6,
  0xa22e0000000c09a00c413b261005500280058010100000000009d252f060204460a7f000000000000000202be110a32142832144600b7,
  0xa22e0200800c89a00c413f261011d005000bd010100000000009d252f060204460a7f0000000000000003034b110a503c3250326400b8,
  0x882c0b0508080bb50c6510e28017c00780090050100000000009b45050a0a0046147f000000000000002002410505411e1e73644600b9,
  0xa22c0200a00c9ba00d61372600153006e00e10301000000000002060b02020346147f000000dd00000c00032d0a0a645a464b4b5a00ba,
  0xc03e4140020109a81843106200005002800320901000000000097662207060346147f000000000000040001ff020b37233228232300bb,
  0xc03e4140020109a8184310620000a003c00770301000000000097662207060346147f00000000000000800278020b412d50322d3700bc,
  0xc03e4140820109a8184314620001e005000cf0101000000000097662207060346147f00000000000000c0032d020b5f376e46374b00bd,
  0x803f001032080fa80e5b30e21007300500048060100000000005c353205050446147f0000000000000040012d000037285537463700be,
  0x882e0040000109a08843986200012001e002402010000000000305e2207070346147f000000000000010001eb0b0b1e1e1e1e1e1e00bf,
  0x882e0040800109a088439c62000550050009502010000000000305e2207070346147f000000000000020002780b0b55691e374b4b00c0,
  0x803d000000004ba80b4350620017c0078004e00010000000000770e0303030046147f0000010900000040014b02062d4b5f2d414100c1,
  0xa22c4200000409a1a861b326000550028002a010100000000006d0b0605020046147f000000000000000101ff040a19190f2d2d3700c2,
  0xa22c4a04800c8ba5ac61b726002ee008c0097010100000000006d0b0605020046147f0000000000000002025a040a41412355555f00c3,
  0xc0af0100800019a01b413c62d0109005a00b8060100000000009c1c1c05050046231f0000000000000200022d0d0d5f826e3c414100c4,
  0x942d0100a00019b00b4134e21010e006400b804010000000000271c1c05050023231f0000000000000800022d1010823c416e415f00c5,
  0x942d019024804bb80b4170e28001500320051040100000000099e690f04040323147f0000000000000040011e02102a555b2a553c00c6,
  0x82af2310808c99a24f61bf66c031b00c800ac0901000000000090140c02010046147f000000dd00000c0002460d0a6e641e504b5f00c7],
  [0xd0ad011025101bb80b5930e28000a00460057070100000000091a1a1a0b0b0423197f0000000000000400012d07075555553c3c3c00c8,
  0x200003200320076041c00000000001a1a1a0f0f004628ff000000000000010402e10d0d30483030483000c9,
  0x80000011d0082008e010100000000008c17170b0b0046147f0000000000000002022d0d0d3a21213a21be00ca,
  0xc0af031000111ba01b793862d019f0096009f020100000000009d302705050046147f0000000000000200023c0d00415a5541504600cb,
  0x802c0a20280009a51863187200048003c003a070100000000008e050503030046147f000000000000001001be060623230f5a413200cc,
  0x806c0a29a80009a518631c72004ea007800a3060100000000008e050503030046147f0000000000000020024b08063c3c288c5a4b00cd,
  0x812d8b3000100ba64a7b73628008c00960091020100000000009b322005050046147f000000000000000102be000041412d46466400ce,
  0x903c9a45220a4bbd8c6170f200288006e00560601000000000011083403030346147f0000000000000010013c0204412355694b4100cf,
  0x986c2b25a84009b5086514e300fa0039800b307020000037a007d05450a0a0046197f000000e9000000200219040841371ec8554b00d0,
  0xc52c021020082bb2de7b30eb1004e003c003c090100000000099b32160605044614bf000000000000000401be111128281e32503c00d1,
  0xc52c0a14a008abb6de7b34eb101e7008c009e060100000000069b5f160605044614bf0000000000000008024b11113c3c2d4b785a00d2,
  0xa22c8030280409a0aa4133b60002700320058070100000000001621260c0c0046147f000000f500000004012d030a373755555f4100d3,
  0x807c1040824a4ba90c41fc720049c00b400af0002000003560087654403030046197f00000000000000080219080650374164824600d4,
  0x802c4a25000009a5a8659072000cd003c00b1020100000000007e520503030346147f0000002b002b041002be0506e60a05e60a1400d5,
  0x802c0a44904a8bac0c65347a1021c009600af01020000036100993e4403030546197f0000000000000008022d01065f28554b7d5000d6,
  0x962d9140340a0fb81e4133e680118005a0056040100000000097c332705050323147f000000d900000040013c0e104b2373375f3700d7,
  0x802c0a4030080bbc0c6130eb10058003c004205010000000000765f3505050046147f00000000000000040178000032322832503c00d8,
  0x802c0a44b0088bbc0c6534eb104ea00b400af050100000000007f5f3e05050046147f0000000000000008023c00004b4b374b825a00d9,
  0x882c4800010029e6584118620015e00460032000100000000008531280b0b0046147f000000000000010001be090928461428282800da,
  0x882c4a25890029e758671c620022600500097000100000000008531280b0b0046147f0000000000000020024b0509505a1e78323c00db,
  0x802c0a00000009a518613b270004100280032050100000000002f510c05050546147f000000000000000401e1040e1e1e3228323200dc,
  0x802c0a04800009a518613f270022e006e009e050100000000002f510c05050546147f0000000000000005024b040e3c3c3250646400dd,
  0x8a2c0a05080409a51b61bb6680032003c009009010000000009901e370902044614bf0000028800000410023c050a5f41235f374100de,
  0xa22c001000140ba24945376200078003c003c070100000000008d61370c020046147f000000000000010001be0a0a23414123412300df,
  0xa26c0010a0150ba2e94537620011d005a00a8000100000000008d61150c020046147f0000000000000104024b0a0a4b692d4b694b00e0,
  0x802c048200480ba80c413326000a0005a0074000100000000090f374805020446147f0000000000000040022d020e2d414b2d372d00e1,
  0xa22c0a00820409ac086177260089800d200aa06010000000000290b2102020546197f00000000000008000219020a8c504646285500e2,
  0x906c18c020204bbd084150e3001f900aa00a30701000000000685053304040546197f000000e900000020021902084628468c504100e3,
  0x942d000025002bf2ca4310e30006c003c0042040100000000007f123005050523147f0000000000000100017809103250411e3c2d00e4,
  0x942d0000a5002bf2ca4314e30015e008c00af040200000352007f123005050523147f0000000000000200022d0910506e5f325a4b00e5,
  0x400000000a26c0000808409a008413726005f000b400f3010100000000000661210e020046147f000000eb00000504032d0f0a5f5f555f5f4b00e6,
  0x802c0a00000019a5086110630014f003200420101000000000008353505050046147f0000000000000001017804042828283c3c5a00e7,
  0x802c8a25804019a508611463004b0006e00af0701000000000008050505050046147f0000000000000014023c04043c3c3278785a00e8,
  0x80ad011080100aa80b5b376240145003c00b4000100000000069458240a0a004614ff0000000000000200022d00005f693c5a505500e9,
  0x81ad031080110ba01b7b3863d02c8008c00a3050100000000009d771605050546147f0000000000000004022d00004155553e5f4900ea,
  0x24400780058080100000000098d651405050446147f0000000000000040022d00002d144b23143700eb,
  0x802c0a0000000fa00c61306a100d20046002a0601000000000048503e0f0f004619000000000000000004014b010123232323232300ec,
  0x802c0a2400000fa90c61306a101e0008c009f050100000000005065160808004619000000000000000800022d01016e23465f5f3200ed,
  0x80af050220081ba01b413b26c003c0028003d090100000000005d6c0c0f0f004619fe0000000000000100012d0d0e4155410f1e2d00ee,
  0x812c001800180ba00d593822000eb003c00480201000000000f4809090f0f0046193f0000014200000040012d0c0c37415f253f2d00ef,
  0x802c000001082be24d411062000d6004600490001000000000f4831310f0f0046193f0000014300000040012d0909374653254b2d00f0,
  0x822c0b30800899a50e7b3762102f3007800ac090100000000039d712f0505054614fe0000002100210020022d000046286469505f00f1,
  0xc12f0b10801899a74f7bbf66901d4009602600901000000000083201e0606048c28fe0000000000000003031e0000874b370a0aff00f2,
  0x852c0318809008a11a593c63806f400be010502010000000000272e2e0f0f052350ff000000000000018003030c0c6473734b555a00f3,
  0x842c0304818028e35a433463807bc00d2010505010000000000272e2e0f0f052350ff0000000000000009030309094b5a6455737300f4,
  0xa62c0300808408a11a4137678074e00c8010501010000000000272e2e0f0f052350ff000000000000081003030a0a735a55734b6400f5,
  0x942c0a05200009b50c6534e2002d0003c003c03010000000000083e3e01010523287f0000000000000004012d0405322d2932403200f6,
  0x942c0a05200009b50c6534e2005f000780090070100000000003d3d3d01010523287f0000000000000008022d040546413346544600f7,
  0x962c2a15b04889bf4c7d37e3207e400c8010e030200000355007f2d2d01010523287f000000000000000c032d1005645f3d6e866400f8,
  0xa22d2390803058a91b79ff67c08700208013208010000000000882e2e0f0f050078ff0000000000000c000303020d9a5a6e825a6a00f9,
  0x802d0390813078eb5b7bfc63807c6017c013200010000000000902e2e0f0f050078ff0000002c002c0c00030302099a6e5a5a826a00fa,
  0xc8bf0150801918a91b43bc6280032003c010e030100000000001e1e1e0f0f036478ff0000009d009d0003032d0b0d64646464646400fb,
  0x10000000882e0840020909ac0c439062100320032003e030100000000005441410e010346141f0000000000000040012d0b0b374146232d2800fc,
  0x10000000882e1840020b0dac0c439062100d8005a008e030100000000005441410e010346141f0000000000000080022d0b0b41555f2d413200fd,
  0x90000000882e1a40824b8dac0c6394633020a00aa00ef030200000373005441410e010346141f00000000000000c0032d0b0b55697841554600fe,
  0x20000000802c0840110039ee48411062100190028003e0001000000000003424205050346141f0000000000000100012d090932462d283c2d00ff,
  0x20000000802c88401108bdee4c41106a100c3005a008e0001000000000003424205050346141f0000000000000104022d01093c55373c553c0100,
  0x120000000802c8a449308bdee4c63146b1020800be00ef0002000003500003424205050346141f000000000000000c032d0109466e504678500101,
  0x40000000a22c0800000419a4284133261004c0028003e0101000000000006434302010346141f0000000000000004012d0a0a3232283246320102,
  0x40000000a22c0a00000c19a42c613326101180046008e0101000000000006434302010346141f0000000000000008022d040a463c324655460103,
  0x240000000a22c0a04800c99a42c61372710333009600f10102000003720006434302010346141f000000000000000c032d040a5a553c5a6e640104,
  0x942c000024000bb00a4130e30008800320038070100000000009b5f32050500460f7f000000000000000401ff10101e1e232337230105,
  0x942c0000a4000bb00a4134e3001720064009307010000000000995f16050500460f7f0000000000000008027f10103c3c46465a460106,
  0x822e001000181ba00a593362100af00280038050100000000005f5235050500460f7f0000001c0011004001ff0000291e3c291e260107,
  0x822e001090181ba00a5937631014500320093080100000000005f5235050500460f7f0000001d00110080025a00003d32643d464e0108,
  0x24001e003800010000000000321313030300460f7f000000d50097000101ff06061e1414232d2d0109,
  0x64003c0048080100000000003d3d3d030300460f7f00000000000000200278060619190f372332010a,
  0x803c400082010ba80b43d4720011c006400b2020100000000004f4444030300460f7f0000012700000300032d020632644132463c010b,
  0x7300460048060100000000003d3d3d030300460f7f00000000000000200278060619190f372332010c,
  0x803c400082010ba88b435c720013c007800ad030100000000000e1313030300460f7f0000012700000c00032d03065a324146323c010d,
  0x8a2e004000051ba0084333660001a0032002c03010000000000142c21070203460f7f000000db0000040001ff0b0a32281e1e1e28010e,
  0xaa2e0040000d1ba00c433366001450078007703010000000000142c21070203460f7f000000db0000080002780b0a463c3232323c010f,
  0xaa2e0040800d9ba00c43376600226009600d803010000000000142c21070203460f7f000000db00000c00032d0b0a645a464646500110,
  0x882e0040080309a00a431062000280032002c050100000000007c3022070503460f7f0000010f0000001001ff0b0b1e1e1e3228280111,
  0x9c2e09402c0b0fb40e4314620011800640077050100000000007c3022070503460f7f0000010f000000080278100b283c3c2846460112,
  0x9c2e1940ac4b8fbc0e43146200254008200d8050100000000007c3022070503460f7f0000010f0000000c032d100b3c5a503c645a0113,
  0x803c008000005ba80841706210017001e003601010000000000713e3e040403460f7f000000000000004001c802001e1e551e37280114,
  0x803c008080005ba808417462100c60046009f01010000000000713e3e040403460f7f0000000000000080022d0200324b7d3c553c0115,
  0x803c008000045ba8084173260005f003c0036080100000000092c5d3304020046147f00000000023b004001be020a1e37551e1e280116,
  0x823c0080a02c5ba808417726001180078009a020100000000062c023304020046147f00000000023b0020022d020a465f4164323c0117,
  0xc0af011001181bb01b49b8e2c004200280028080100000000008c241c0b0b0523147f000000000000010001eb110d232d2819191c0118,
  0xc0af011001181bb01b49b8e2c00ca00500061080100000000008c241c0b0b0523147f00000000000002000278110d3741322323260119,
  0xc0af011081199bb01b49bce2c01e400a000e9080200000349008c241c0b0b0523147f0000000000000300032d110d737d50414144011a,
  0x802c410000040ba00a4333620001100320036010100000000092c2121030200460f7f00000000005e004001c80a06343241201e28011b,
  0x803c410080050ba80a437762000240050009f010100000000067f1616030200460f7f000000de00000500024b02065264503e3c46011c,
  0x802e0040000309a0884390720002d0028003b050100000000005f5a1b070602460f7f000000570056000101ff0b0b3c28233c283c011d,
  0x802e0844800b8da48c43947a10188007800a103010000000000655a1b070602460f7f0000005700560008025a010b3c3c4650823c011e,
  0x802c0800100809ae4e5b336a100f00050003805010000000000363636050505460f7f000000000000000101ff000023231e3c3c3c011f,
  0x802c0a0010088dae4e7b33eb101d1008c009a08010000000000484848050505460f7f00000000000000800278000037375a5050500120,
  0x802c0a0090888dae4e7f37eb1051900c800fc05010000000000363636050505460f7f0000000000000003032d0000415f6464a0960121,
  0x802c1000000208a90ac31062000370032003507010000000000320e0e030301460f7f000000ed0000001001ff04061e1e285a2d1f0122,
  0x803c104080020ba90ac3546200078005000a002010000000000970303030301460f7f0000000000000080027802063232a02d5a3d0123,
  0x802d100091020aa90ac314620000c00500053050100000000001919190a0a01460fff0000000000000002022d07061e1e282d5a010124,
  0x802c0000000819a24a433363100a3003c0030090100000000009b2b2b05010346147f000000000000000101be000017331c1733400125,
  0x802c0a00000839b64e6733e3101950064007e01010000000000712b2b05010346147f0000000000000002027800002b47302b47540126,
  0x822c0a008008b9b64e6737e310348009600dd01010000000000712b2b05010346147f0000000000000003032d0000495b443f5b680127,
  0x822c8a0000088da40c65306a103600064002f020100000000097d3e2f08080246143f000000f10000000101b401011e14191e3c480128,
  0x822c8a04a0088da40c65346a109ea00e600a6050100000000067d3e2f08080246143f000000dd0000000202c801013c28323c78900129,
  0xa22c0000000409a008413b261001400140026010100000000009d252f0f0f04460abf000000000000000101961100281414281432012a,
  0xc02c0a1d080009b5087d10e2003ca0064004b070100000000099f2a050a0a0046147f000000f20000001001ff05055a2d1e872d1e012b],
  [0x812f0110201019a00a5bb3629006e003c003409010000000000936038060504460fbf000000000000004001ff00002323322d2d32012c,
  0x812f0110a01019a00a5bb76290146006e008c06010000000000936038060504460fbf0000000000000041023c000037375a414146012d,
  0xd42d810035880fbc0f4130e28006e00320085060200000374009e643308080323197f0000010900000014022d07104141324b4b32012e,
  0x906e0944a41a89b7ce4335e200073003c0085040200000362007d163406050446147f0000011600000014022d1108373732555532012f,
  0x802c0a01100009ad0861306300258002800420701000000000086450501010523237f000000ee0000001001b4050828281e6446320130,
  0x802c0a05100009ad08613063004b0005a00970701000000000086450501010523237f000000ee00000020025a05083232288c5a3c0131,
  0x926c2a15f04889af4c7f37e320e1000d200ef0702000003530086450501010523237f000000ee00000030032d05083c3c32b46e460132,
  0x802f890000088da41f41386ad0070003c0038010100000000008c4a4a08080046147f000000000000004001b40d0137283c37281e0133,
  0x802f890080098da41f413c6ad013b00820090000200000351008c4a4a08080046147f0000000000000080025a0d014b3c504b3c3c0134,
  0x852c001800100ba04859382300098003c003b030100000000003a1f0905050546147f000000000000004001780c0c284141282d280135,
  0x852c001880102ba048593c2300192009600a6020200000363003a1f0905050546147f0000000000000080022d0c0c3c69693c4b460136,
  0x812e0018001819a0085938220002a0028008e020100000000001f393906060046147f000002220000004002c80c0c4b555f28323c0137,
  0x812e0018001819a0085938220002a0028008e020100000000000a3a3a06060046147f000002220000004002c80c0c554b5f32283c0138,
  0xc03c411002180ba80e5b7862000b100460097070100000000009e4423080301460f00000000d50000004002960606552f554b49410139,
  0xc03c411002180ba80e5b7862000b1003c0097060100000000009e6e0c080302460ffe000000d500000040029606065549554b2f41013a,
  0xc82e8140000109a08a43307200014001e008c0301000000000066261e07060346147f000000f5000002000296030b5064412d3c32013b,
  0x802d4000080009a0aa433172000670028003c03010000000000523c400b0b0246147f0000009e009b000101e10303352b28352b46013c,
  0x802d4200880009a0aa6335720032000aa00a306010000000000523c400b0b0246147f0000009e009b0002024b0303534937534964013d,
  0xb62c000020040bb0084133a6000d00050003d000100000000090318180c0c0523147f000000e20000000401e1100a144141145a2d013e,
  0xb62c8200a0040bb4086137a70037800b400a1010200000378030318180c0c0523147f000000e200000008023c100a285f5f287846013f,
  0xa22c0200000419a4086133270051400c80050010100000000092e0c290c050246287f0000000000000001017d0a0a23463c2346820140,
  0xa22c0200800419a40861372700f8c05aa00af010100000000062e0c290c050246287f0000000000000002023c0a0a2d5a3c2d5aaa0141,
  0x882c0a00010039e748611062000f00046003d0201000000000014560c05050046147f000000000000010001ff04092d4123283c3c0142,
  0x886c0a05890039e7486314630089800be00a10002000003830053742805050046147f0000000000000104029604094b69284664460143,
  0x882c0a24890029e6c863146200324003200a5050100000000064b464905050046147f000000f900000020025a09094655148c55460144,
  0x80af011020100bb01b4138e2c0132004600420401000000000052142f05050446147f000000000000040001ff0d0d50463c23193c0145,
  0x80af0310a0198bb01f413ce2c02cb005a00a50601000000000052142f05050446147f0000000000000800023c0d0d6e5a50412d500146,
  0x81ad090000080ba40f41b06290032006e007e050100000000067e4d14080504460f7f000000000000010002ff00003c3c3c3c3c3c0147,
  0x802c0a00000009a508631462000960046003a050100000000097d473403030346147f000000ed0000000401ff04042d2d0a2d642d0148,
  0x400000000803c0a80000049a50863546200099006e0077030100000000061a1a1a03030346147f000000000000004402780f043232463246320149,
  0x400000000803c2a84804049af486354622033400c800ea030100000000001a1a1a03030346147f0000000000000084032d0f04505064506450014a,
  0x982e8040200909a10c4310720020100280043030100000000000b080808070323147f000001200000010001be0b0b285523285532014b,
  0x982e8040a40989a10c43147200306008200a6030100000000000b080808070323147f0000012000000104023c100b3c73373c7346014c,
  0xc02d018000005ba80843f1620000c0028003e010100000000000d1e1e0e040146147f000000000000040001ff02004b28323c282d014d,
  0x400000000c02d038080005baa4863f563200ce006e00ac010200000375000d1e1e0e040146147f0000000000000800022d020f6946505a464b014e,
  0x802c9840340a8bae4e5b33e310193008200a00801000000000089111105050146147f000000d900000008025a00003c3c5a3c7349014f,
  0x902cf24020400ba0e86130f20020d010e00a004010000000000973d3d0e050246147f0000012700000104025a03033c64413c64490150,
  0x80af0b258e1008a51b65bf22c0690006400a1020100000000001a1a1a0a0a044619ff00000051005a0200022d0d05555f4641375a0151,
  0x80af0b258f1028a75b679c62c0604007800a1000100000000001a1a1a0a0a044619ff00000050005a0008022d0d05413746555f5a0152,
  0xa22c0200000409a508613326000130028003a070100000000095d6b0c0c0c0046147f000000000000000101be040a292e3c2b30320153,
  0xa22c0a04800409a508613726000ec005a00a4010100000000065d6b0c0c0c0046147f0000000000000002024b040a474c3c494e6e0154,
  0xa22c1840200e09ac8c4133a600073003c003e000100000000005b4b34090202460f7f000000000000000401cd0a0a23322341502b0155,
  0xbe2c1840a00e09acac4137a600148006e00a4000100000000005b4b34090202460f7f0000000000000008029b100a375a3755783f0156,
  0xc0af0b21081008a51b67b962c00d70032003c050100000000001a1a1a0a0a004614ff0000010d0000040001ff0d044628373728280157,
  0xc0af0b25881008a51b67bd62c0438009600af040100000000001a1a1a0a0a004614ff0000010d00000800025a0d0478464b69463c0158,
  0x802e4841000109a588471062000ee0064004706010000000000721515090901461e1f0000012800000400012d0b05573d174d29420159,
  0x802e4a45800109a5a86714620025c009600ad03010000000000721515090901461e1f0000012800000800022d0b056b512b615156015a,
  0x802c1841000209ad0c4510620007d0046004707010000000000210404090901461e1f0000000000000004012d060532284b325f2d015b,
  0x806c1a45804209ad0c651462002aa009600ad07010000000000210404090901461e1f0000000000000008022d060550462d647d4b015c,
  0xa22c0000000409a008413b260004a003c0028050100000000095b0c210e020146147f000000000000004001ff0a0a370a50140f14015d,
  0xa22c2300804409a00841bf2600654026c00bd0901000000000038ac3f0e020146147f0000000000000800023c0a0a7d64514f3c5f015e,
  0x802c011000050ba34a5b336610008001e009307040000032f003b3b3b0b060046197f000000f300f30001022d0000464646464646015f,
  0x80ae091010180bae4e5b3362100dc0064009a03010000000000a8101005050346147f000000000000040002c80000783c28465a3c0160,
  0xd0ad011025100bb00b5930e280017003c003b0401000000000082770f0b0b0423197f000000f70000000401e10707213f2d234b2c0161,
  0xd0ad4110b5180bb00b5934e28007d006e009f0402000003540082770f0b0b0423197f000000f700000008022d07073f53414173400162,
  0x90ad410025180bb00b4133e2800960050003b04010000000000771a1a0b0b0423197f000000f70000040001be07075a1e195a28140163,
  0x90ad4b00a5180bb40f6137e28013200a0009f04010000000000772e2e0b0b0423197f000000f700000410025a0707823c198246280164,
  0x882e02c0804149a80863d463003e800c800a1030100000000008b5e2207010546197f000000000000000202c8020b5748335344630165,
  0xc0af0110001119b01b41b8e2c000a003c009f010100000000001a1a1a0b0b0446197f000000e000000500022d0d0d5a5f4150324b0166,
  0x942d1954b1521bbf4a5937e6801d6007800a308020000035f039a692e05050323197f0000000000000008021e10103c4b4b3c82410167,
  0x80000008c003c0034010100000000008c17170f0f0046147f0000000000000001017d0d0d30171730175f0168,
  0x802c0400000009a00a41bb26000a80046003c070100000000098d73270a060046147f000002890000000101be0e0e3232323232320169,
  0x902c0620a80009b00a61bfa600a05009600a807020000037c038d73270a060046147f0000000000000002024b0e0e505050505050016a,
  0xa22c0e00000019a4086133260018b0050003a010100000000000c732f05020346147f000000000000000101ff0a0e323719322846016b,
  0xa22c0e00000019a4086133270036c006e0090010100000000000c732f05020346147f000000000000000202780a0e464b2d463c5a016c,
  0xa22c0e00800019a408613727005e2008c00ef010100000000000c732f05020346147f0000000000000003032d0a0e5a5f415a506e016d,
  0xa22c0000000409a0084133260020d00280045010100000000009b4b4b02020146147f000000590058001001ff0a0a374a20554023016e,
  0xa22c4000800409a4084137260010e00aa00aa0101000000000029212102020146147f000000e200000014023c0a0a4b5e34696837016f,
  0xa22c4100800409a00b41b726000e200b400aa090100000000005d212102020146147f000000e300000200023c0a0a4b72346954370170,
  0xa22c0b05800409a50865b726800ea006400aa070100000000030545210c020546281f000000e3000000110219050a412d37825a640171,
  0xa22c0100000409a00841b32600057003c0074090100000000065d21210c0c044614bf00000000005d004002e10a0a412861371e2b0172,
  0x400000000802c0800100009ae4c413063201a5003c003c010100000000097d45450e0e0523287f000000fa00000004012d0f0f1e28323c4b2d0173,
  0x400000000802c0800100009ae4c41306320451006e0093080100000000068e45450e0e0523287f000000fa00000020022d0f0f323c32645f410174,
  0x400000000802c2a84904049ae4c617463204020096010e010200000385009916160e0e0523287f000000fa0000000c032d020f506e6450875f0175,
  0x3b8003c003c01010000000009871d1d0a0a052328ff000000e90000001001030d083c231e5037280176,
  0x806e0b21080008ad9f613c62407e90078009301010000000006871d1d0a0a052328ff000000e90000002002030d08503732644b3c0177,
  0x806e0b21880008ad9f613c624157c00a0010e01020000037e00871d1d0a0a052328ff000000e90000003003030d085a5f468287500178,
  0x802c0b15881888a50c7d9462008fc00aa010505010000000000051d1d0f0f052350ff000000000000003003030505643232c864500179,
  0x806c0f13881888a40c79b726006d600b4010501010000000000731d1d0f0f052350ff0000000000000c0003030e0ec86432643250017a,
  0x806c0b11981888ad0c79b4620080200be010507010000000000871d1d0f0f052350ff000000000000042003030808964b32964b50017b,
  0x400000000a22f0390901149a91b7bfd63e0190008c010e000200000366001a1a1a0f0f055a78fe0000000000000c0003030d0f826e6e5a5050017c,
  0x400000000a22f0390901149a91b7bfd63e025800c8010e010200000365001a1a1a0f0f055a7800000000000000030003030d0f6e826e505a50017d,
  0xa22c0b10800408a40c79b72780dc001c2012e01020000037f000202020f0f050078ff000000000000030003030a0a8c965a5a6464017e,
  0x802c2b559048a8af4c7f946b2251c015e012e000200000380004646460f0f050078ff000000000000000c030304045a645a8c9664017f,
  0xc00000000a22c2bf49069b8af4c7b376b2081102bc0132030200000381004c4c4c0f0f050078ff0000000000000108032d020f5a965f5a96690180,
  0xc0ff0110801908a91b59bc62c000b001e010e020100000000002020200f0f056478ff0000005b005b000303030d086464646464640181,
  0x90ef891080598cbc1f5bbde2c026000aa010e000400000323002e2e2e0f0f050078ff000000000000014403030d0d3296963296320182,
  0x10000000882e0040000109a0184398621006600280040030100000000004b414107010346141f0000000000000004012d0b0b372d1f4044370183,
  0x10000000882e0040000109a018439862103ca006e008e030100000000004b414107010346141f0000000000000014022d0b0b41372455594b0184,
  0x90000000882e0a45800109a518639c6310c1c00dc00ec030100000000004b414107010346141f0000000000000018032d040b554b38696d5f0185,
  0x20000000803e004013082dfa4c4110ea1003e0032003e0501000000000059424208050346141f0000000000000040012d09092c3a3d2c3a2c0186,
  0x20000000803e88401308adfe4c4110ea100dc005a008e0501000000000059424208050346141f0000000000000140022d0109344e51344e400187,
  0x120000000803e8a449308adfe4c6314eb90226007800f00501000000000059424208050346141f0000000000000144032d010947686c47684c0188,
  0x40000000a22e0000008c19ac0c413326100340028003f0101000000000080434305020346141f0000000000000100012d0a0a383d283533350189,
  0x40000000a22e0000108c19ac0c413326100e60050008e0101000000000080434305020346141f0000000000000200022d0a0a4c5132444240018a,
  0x240000000a26e0a40908c59ac0c6137271034d00aa00ef0101000000000080434305020346141f0000000000000300032d080a656f3c585654018b,
  0x803c008000005ba80841706210014001e003105010000000000783333040403460f7f000000000000004001ff02001e1e3c1e3728018c,
  0x803c008000005ba8084170621009b003c007705010000000000781616040403460f7f000000000000008002780200282850324b37018d,
  0x803c008080005ba808417462100f9007800da05010000000000781616040403460f7f000000000000000c032d02003c3264467855018e,
  0x802e005000101ba00a5933e2100c800320032050100000000008d6d56050200460f7f000000000000000101ff000028231f282d3b018f],
  [0xa22e0250801c1ba00a5937e21013b00640090050100000000008d6d56050200460f7f0000000000000008027f0a003c37473c554f0190,
  0x16001e002700010000000000323d3d030303460f7f000001150000001001ff06062919192919250191,
  0x802c5040800219a80cc134e2000ff0064008600010000000000654444030303460f7f0000011500000008022d060633374133554d0192,
  0x852c001800100ba0085938230005f00320035010100000000003e164f05050346147f000000000000000401eb0c0c22282d22412d0193,
  0x852c001800100ba00859382300131005a007f010100000000003e164f05050364147f000000000000000802780c0c313c3c31553c0194,
  0x852c001880100ba008593c23001a4008c00eb010100000000003e164f05050346147f000000000000000c032d0c0c4f5f464f78500195,
  0xc82e0140000109a08a4330720000c001400380301000000000066261e0f0f0346147f000000f50000010001ff030b463237231e280196,
  0xc82e8140800109a08a43347200091005a00e80301000000000065261e07060346147f000000f500000300034b030b697d5a41463c0197,
  0x802c0a4520080ba7487d33630013b005a0046010100000000007d6868010101461e1f0000000000000004012d05051e1e3a287d430198,
  0x822c2a45a0088ba74c7d37630040100a000ad010100000000007d6868010101461e1f0000000000000008022d050532413a3ca5610199,
  0x806c0a05000009b7487d33e30023a00320046070100000000002b0505010101461e1f0000000000000010012d0805582a1e762a1e019a,
  0x806c0a05800009b7487d37e3005d7008200ad070100000000002b0505010101461e1f0000000000000020022d08058a2f1ea8343c019b,
  0x1020000220014002d030300000000008e3d3d030300460f7f0000000000000400017806062d1d242d1d28019c,
  0x802f410080010ba00b43b4720004100320094030300000326008e6b6b030300460ffe000000de00000800022d0b06694f24553b3c019d,
  0x803d410082010ba80b43f472000e9005a0094020100000000006e4444030300460f00000000de00000104022d0206325e42325e46019e,
  0x37001e003102010000000000377676030303460f1f0000005e00000040017802062a1e462a1e1e019f,
  0x803c500082880ba88841747200181007800a6020100000000007f2e2e030303460ffe000000f500000410022d020666502866504601a0,
  0x803e0018001819a008593822000270028008e080100000000000a3532060500640a7f000000000000004002c80c0c5a2d5f462d3c01a1,
  0xa22c0000000419a40c41332e00127004600420501000000000029212105020046147f000000000000004001be0a0a1e3c5523413701a2,
  0xa22c0000a00499b40c4137af0014f006e00ad0501000000000029212105020046147f0000000000000080024b0a0a32557337695501a3,
  0xc82e0040000109a00843906200021002800370901000000000022222207060046147f000000ef0000010001be0b0b353e232d232d01a4,
  0xc82e0040800109a0084394620005d0032009e060200000332007a7a7a07060046147f000000ef00000200024b0b0b4e5755463c4601a5,
  0x822c4000000409a0084133260003f001e0041060200000333099f723c0b020046147f000000000000000101be0a0a3e392230304c01a6,
  0xa22c4a04800409a5a86137260012b005a00a6060200000334069f723c0b020046147f0000000000000002024b040a525c2744536f01a7,
  0x803f0010b2080fa80e5b34e2100cb007800a9060100000000005c356505050464147f0000000000000080022d0000423c7342644b01a8,
  0x802d01302f100ba00b5930628000c00280046060100000000098a546a0b0b02461e7f0000000000000001017d02072c3c4622325a01a9,
  0x802d01b0af100ba00b59346280096007800ae060100000000068a546a0b0b02461e7f0000000000000002023c0207365a502c509601aa,
  0x802e0010001809a00a4b316210037002800460501000000000007673208050000147f000000000000004001be0000382c552c423701ab,
  0x802e001080588da00a5b37621014d007800a8050200000384000767380805008c147f0000000000000080023c0000603669544c4101ac,
  0xd0ad0110a5111bb80b5934e28002c005a00ad060100000000001a1a1a0b0b0423197f0000000000000500022d07076969693c3c3c01ad,
  0x942d0190a4804bb80b4174e280111005a00b10401000000000099690f04040323147f0000000000000008021e0210346947347d6401ae,
  0x803d010030001bb80a5930e2100270032003e070100000000003314070505044614bf000000000000004001be0000252a552a373101af,
  0x803d0300b0001bb80a5934e3101b60064009e0701000000000080142f0505044614bf0000000000000080024b00003b407040524701b0,
  0xc0af0110001019b01b41b8e2c000600140039020100000000001a1a1a0f0f0446197f000000e00000010001780d0d32412d321e2d01b1,
  0x942c000038000bb2ca4130f3000c00028004206010000000000336a0105050046147f000000000000004001e1100329294a2f3f3f01b2,
  0x942c8000b8000bb2ca4134f30017c006400a806010000000000336a0105050046147f0000000000000002023c10033d4754435d6701b3,
  0x80ef0b21201008a51b63b862c025d0032003c0301000000000086551a0a0a004614ff000000e90000001001ff0d0856181756183901b4,
  0x80ef0b21a81008a51b63bc62c074e008200af0301000000000086551a0a0a004614ff000000e900000410025a0d08744f2174594301b5,
  0x882c090108000ba50c451062800960032003a0501000000000f9b45050f0f0046147f000000000000001001ff05052d0a0a5f503201b6,
  0x80af411000180bb01f5bb8e2c0082003c003e09010000000000656f2b0f0f0046197f00000000000004000191110d5a463c2d191401b7,
  0x802f0110000819a24b43b866100f4003c006e0901000000000084201e0f0f048c28fe00000000006e000101820000410f1e05056401b8,
  0x803c008000005bb8084170e2100130032009004010000000000914d3304040323147f0000011500000004021e02002a5c5b2d414c01b9,
  0x942d410085800bb40b4134e280438006400aa06010000000000972e2e0b0b00461e7f0000000000000410026410076c5c236c5c3201ba,
  0x400000000802c0a04100009af48613063200cd0046003c010100000000001808080e010546287f0000000000000004012d040f2d282a2d463a01bb,
  0x400000000802c0a04100009af4861306320230008c0090010100000000001808080e010546287f0000000000000008022d040f373252415a4401bc,
  0x400000000822caa44904a09af4c613463203b600be010e010200000364001808080e010546287f000000000000000c032d040f5550665f826c01bd,
  0x822c0a00000809a74f7b33621041a003c004e04010000000006522f350f0f0546281f000000ea00ea00010132000055280528558701be,
  0x802c8a4030088da40c61306b100ca004600390101000000000f9e27500f0f0346191f0000000000000004014b010128233c28462801bf,
  0x906c8a44b0088da40f61346b9021c007800b8010200000359009a275008050346191f0000000000000104022d080146735a466e4601c0,
  0x802c0a00000009a508611063001ef00500042050100000000009f2d2d050505461e7f0000000000000010018c04042a26204e484401c1,
  0x802c0a04800009a50861146300bb800c800b8050100000000009f2d2d050505461e7f0000000000000020023c040448442f76706c01c2,
  0x902cd040200a0bbc8e4130f200078005000420601000000000033610409030546147f000000f50000001001780603371e415a322801c3,
  0x942cda40a04a0bbc8e6134f300267008200af0601000000000033610409030546147f000000f500000020022d10034b3c5f6e5a4601c4,
  0x902c9a0024088fb4ae6130fa100e60046003c010100000000008f576b080800640a7f0000011900000004018c0103283d32283d3001c5,
  0x902c9a44a4088fb4ae6134fa101bc008200ac010100000000008f576b08080046147f0000011900000008024b0103415655416a5301c6,
  0x882e4040a0090ba0884314620010e008c009f030100000000001a1a1a07070546197f000000000000000802c80b0b485a2e48644a01c7,
  0xaa3c0100200409a00841b3260004600280042010100000000092972210c0c0146147f000000000000004001be0a0a3d314238313101c8,
  0xa23c0100a00409a00841b726000f0007800a1010100000000062972210c0c0146147f0000000000000080024b0a0a56455b4c454501c9,
  0xa22c0a00020409a8086133260028a0064004501010000000000290b210f0f0546197f00000000000004000119020a783c3232142d01ca,
  0x802e0440000109a00a43bb26001f900640043080100000000002b757507010546147f000000f60000000401780e0b3c3e28323e3c01cb,
  0x802e0e40800989a40e63bf260054b00dc00ad08020000035a002b757507010546147f000000f600000104023c0e0b555c3c4b5c5a01cc,
  0x962d9140b40a8fb81e4137e680154006e00b3040100000000007c2e2e05050323147f000000d900000044022d0e10552d7d41784601cd,
  0x816c0138881008a018593c6200708007800f10701000000000094052a0a0a004614ff000000e900000300031e080c5a823c73464601ce,
  0x822d2b6088488ba74e7b37621057800aa00b4090100000000000d0c1401010046147f0000011700000003021e00005f50325f556e01cf,
  0x826caa45f0488ba74c7d376300b0c00f000f10701000000000078741f05010546147f000000000000000c031e0504373728828c7301d0,
  0x882ecb40a0098bac9c6314620050600c800bb0101000000000090662207070046147f0000000000000020021e0b0b326e327d646401d1,
  0x812c0a1880188fb44d793ca20056a00b400f302010000000000484e4e08080046193f000001420000000c031e0c0c555f5f437b4b01d2,
  0x802c0a008108aff64d6b14e2002a800a000f30001000000000048313108080046193f0000014300000300031e09095f7d53435f4b01d3,
  0xc02f0190800859aa5f43fc625017c009600f508010000000000692037060404460a1f0000000000000600031e02117378505f325501d4,
  0x803d010080004ba80bc354620020300be00b403010000000000776e0303030046147f0000010900000008021e020638745f564c5601d5,
  0x882e1040800119a80a433463100ff006400b80301000000000022666605050023231f0000000000000020022d0b0b413c5f826e4101d6,
  0x802c0402800019a00a41376710103005000b80101000000000073515105050023231f0000000000000200022d0e0e5f82416e3c4101d7,
  0x903c9a45a24a4bbd8c6174f2001a900c800b3060100000000005a083403030346147f0000000000000020021e02044b2d5f7d5f4b01d8,
  0x802c0a04800009a518613f2700b5e00fa00ef050100000000002f510c05050546147f000000000000000c0332040e3c465050826e01d9,
  0x90ad011084100aa80b5b376240154005a00f10001000000000094585b0a0a004614ff0000000000000300031e00004b875a46505501da,
  0xc0af9b54811a9fbc1f69bcead020800a000e9080200000376009a50500b0b05231400000000000000000c032d010d734150417d4401db,
  0xc06c0a1d880009b5087d14e200d48008c00b8070100000000009f2a050a0a0046147f000000f200000810023c0805964b2891373c01dc,
  0x90ad4b00a5188bb40f6137e28042a00dc00ec04010000000000772e2e0b0b0423197f000000f700000810032d070787412d87642d01dd,
  0x802d0512a50809b00b59bfa60010a008200a8080100000000008251510a06004614fe0000000000000080024b070e46506e46504601de,
  0x902d011801100aa01a59386200003001e009a00060000032a001a1a1a0b0b004614ff0000000000000140022d070c4d5f5b4d323201df,
  0xc0bf0110821908a11b5bbc62c0003001e0105020100000000001a1a1a0f0f058c50ff000000000000042003030d0d824b5f824b4b01e0,
  0xc0bf0110821908a11b59bf62c0003001e0105090100000000001a1a1a0f0f058c50ff000000000000050403030d0d69695069695001e1,
  0xc0bf0110aa1908b35b59bce2c0003001e0105010100000000001a1a1a0f0f058c50ff000000000000010803030d0d467d73467d4b01e2,
  0x40000000080ec2b14900038af4c79b76b21aae021c0132080100000000008c2e2e0f0f050078ff000000000000030003030f0864965a78786401e3,
  0x40000000082ac2b14900898af4c79b76f20d2001a40132060100000000008c2e2e0f0f050078ff000000000000030003030f0a78966464785a01e4,
  0x986c0a04a90029f6486314e3010cc00aa010e050100000000003112120f0f05640a7f0000000000000300030308096a824d6a5a5b01e5,
  0x882c0b15a008882c0c7da462010680172012e080100000000007070700f0f050078ff000000000000000c030300006e50646ea06e01e6,
  0x400000000902d2394b15158a80b79b463a1d4c01c20132040200000329008c2e2e0f0f050078ff000000000000000303030f0778645a78649601e7,
  0x80af0110801109a01b43bd62c03580096010e020100000000001a1a1a0f0f056478fe0000000000000c0003030d0d824b5578467801e8,
  0xe23e0100000c08a00841b3260001f002800d8010100000000005d5d5d0602054628ff0000000000000001031e0a0a50505050505001e9,
  0xe23e0100800d08a01b41bf268000e001e010e010100000000005d5d5d060205460aff000000000000000303030a0a64646464646401ea,
  0x942d9950b5188abc8f5937e2801f90096010e040100000000007b7b7b0f0f050078ff0000000000000240030310105a877d5a5a4601eb,
  0xc82e0140800108a009439462000150014010e030200000328001e1e1e0f0f036478ff0000009d009d0003032d0b0b64646464646401ec,
  0x400000000b6ef9bd4b191b8afdf7bbf67f0c8001400144081200000000007979790f0f050078ff00000000000000030303000078787878787801ed,
  0xc1be01108519a8e24f5b9ce2500280028010e02010000000000a2a2a20f0f056478ff00000000000000030303090d64646464646401ee,
  0x10000000882e0040000109b8184398e290051003c003e030100000000007e414107050346141f0000000000000040012d0b0b372d3f372d2d01ef,
  0x10000000882e0040000109b8184398e2900a000500091030100000000007e414107050346141f0000000000000080022d0b0b4b3c534b3c3c01f0,
  0x90000000882e2040804109b818439ce290276014a00ee030100000000007e414107050346141f00000000000000c0032d0b0b5f4b715f4b4b01f1,
  0x20000000812e0020010039e6484310e3100630032003e000100000000002f424205050346141f0000000000000001012d09092d2d2d2d3f4101f2,
  0x20000000812e8a240108bde64c4310e31022b00640092000100000000002f424205050346141f0000000000000008022d0109374637375d5a01f3],
  [0x120000000812e8a24810cbde64c6714eb105dc00a000ee0001000000000078424205050346141f000000000000000c032d0109416441417b6e01f4,
  0x40000000a22e1040000e09a8084133a61003b0032003e010100000000004b434305050346141f0000000000000100012d0a0a2d3f2d2d373701f5,
  0x40000000a22e1040000e09a8084133a6100f500500091010100000000004b434305050346141f0000000000000200022d0a0a3c533c3c4b4b01f6,
  0x240000000a22e3040c00e09a8084137a6103b2009600ee010100000000004b434305050346141f0000000000000300032d0a0a466c4655645f01f7,
  0x802e0040000809a00a493062100740032003305010000000000943332050500460f7f000000000000000401ff000027232a27372d01f8,
  0x802f0150800889a04a593c621010e006e00930501000000000094332305050046147f000000000000000802ff0000453c4d45553c01f9,
  0x852c0010800009ac0a493063100290028003705010000000009323548050503460f7f000000000000000401ff00002d19372d3c2d01fa,
  0x872c0010a00009ac0a49306310093005a008207010000000006719216050503460f7f00000000000000080278000041233c41504101fb,
  0x872c0010a00009ac0a59346310262007800e107010000000000719216050503460f7f000000000000000c032d00005a2d505a6e5501fc,
  0x943f011034001bb80a4130e20006500280038060100000000009e540705050046147f000000000000004001ff101025324225322901fd,
  0x943f0110b4001bb80a4134e200177006e009c060100000000009e540705050046147f0000000000000080025a101032586a32584001fe,
  0x10000000882e000032090fb4084310e210069003c003f0301000000000041525205050046141f000000000000004001be0b0b30354030353201ff,
  0x10000000882e0800b2098fb40c4314e210131006e00ae0301000000000041525205050046141f0000000000000080024b0b0b3f62653f624b0200,
  0x20000000802e000033082ff6484310e21006e003c003f0001000000000042525205050046141f000000000000004001be09093035403035320201,
  0x20000000802e0800b308aff64c4314e210118006400ae0001000000000042525205050046141f0000000000000080024b09093f62653f624b0202,
  0x40000000a22e0000320c0fb4084133a610087003c003f0101000000000043525205050046141f000000000000004001be0a0a3035403035320203,
  0x40000000a22e0800b20c8fb40c4137a610122006400ae0101000000000043525205050046141f0000000000000080024b0a0a3f62653f624b0204,
  0xc0ad0930001109b41b41b822c00e9003c003a090100000000008c1c6c050504460a7f000000000000000101be0d0d3743182d194c0205,
  0xc0ad0930801109b41b41bc22c025d006e00aa090100000000008c1c6c050504460a7f0000000000000002024b0d0d5f6b1d5537740206,
  0x803c0080000059a8084170e210015001e0035070100000000004f6991040403460f7f000000000000000401ff02001e242b3237320207,
  0x803c0080000059a8084170e210096003c007d070100000000004f6991040403460f7f0000000000000008027802002a32413e4d3e0208,
  0x803c0180800059a8084174e210122007800dc070100000000004f6991040403460f7f000000000000000c032d020037415d5073500209,
  0x812c0018001009e0085938220012a0050003b040100000000009d4e1f05050046147f000000000000004001be0c0c20324c203c2d020a,
  0x812c0018801029e008593c220031b00a000ae040100000000009d4e1f05050046147f0000000000000080024b0c0c3f50743f644b020b,
  0x886c0a05080009a508651022000b400280038010100000000099f85050a0a03460f7f000000ee00e5001001ff050519190f554b37020c,
  0x886c0a05080009a508651022003fc005a0089010100000000069f85050a0a03460f7f000000ee00e5001402780505283214696946020d,
  0x886c0a05880009a50867142200a2800aa00e8010100000000009f2d050a0a03460f7f000000ee00e5000c032d0505503c19828755020e,
  0x80bd01b006114bb81b41f8a2c0015002800410101000000000056676d040500460f7f000000000000004001be020d2b37482b2d41020f,
  0x80bd01b086114bb81b41fca2c0069005a00950101000000000056676d040500460f7f0000000000000080022d020d374d723739430210,
  0x802c9a40100809ad8c61102200055001e004207010000000000689f9205050046147f0000000000000004017804042d1e4428553c0211,
  0x802c9a40d04889ad8c61142200194004600b207010000000000689f9205050046147f0000000000000008023c08044132583c876e0212,
  0xc3af0110001819a25b5bbf62d0136006e01860902000003770067908306060446147f0000009e009b000202ff0000563c32563c670213,
  0x802e880420488da40c4530ea1007d003c003d07010000000000597d3e08080346143f000000000000000401b4010123192337504b0214,
  0x802e880420488da40c4530ea101900078008e07010000000000597d3e08080346143f0000000000000008025a01013228285569550215,
  0x802e8a04a0488da40c6534ea10366008c00e305010000000000597d3e08080346143f000000000000000c032d010141372d5f8c690216,
  0x822c4000000419a0a84130260002d0032003b010100000000000b5d2102020346147f000000000000004001ff0a0a2832402832320217,
  0x822c4200000419a0a8413026000aa00500086010100000000000b5d2102020346147f00000000000000020278040a37414537414b0218,
  0x822eca00a00c99a4ac6134360026c009600e5010100000000000b8f2102020346147f0000000000000003032d040a4b554a4b5f690219,
  0x802e8a04a0088da40c6130ea1022b008200a30001000000000068273e080800461400000000f100000002022d0101551e2d556478021a,
  0x802e8a04a0088da40c6130ea101fe008c00a301010000000000682705080800461400000000f100000008022d01014b1e554b7d4b021b,
  0x882f0000200109a00843986280019001e003e020100000000008e2244030303460f7f000000db0000001001ff0b063c282a46352d021c,
  0x882f0000200109a0084398628004900320085030100000000008e2266030303460f7f000000db0000002002780b0650322a5a3f37021d,
  0x882f9040b00349a818439c62800cd007800e1020100000000008e2244030303460f7f000000db0000000c032d0b0650465c50674b021e,
  0x802cc020200009a088431072000350028003400010000000000034426030303460f7f000000f50000001001ff0306271e393b2d1e021f,
  0x802cc020200009a088431072002490078007e07010000000000034426030303460f7f000000f500000020027803064f282f6337280220,
  0x802cda60e00009a488631472007d500fa00da0001000000000003442603030346147f000000f5000000c0032d030645377059643c0221,
  0xc82f0000000109a0084390e200006001e00380301000000000922979e06070046147f000002210000004001be110b3225423c1b280222,
  0xc8bf000080090ba00b439ce200042004600a80301000000000022979e06070046147f0000022100000080024b110b4b4d7455433c0223,
  0x882f0000000109a0084390620004200320038030100000000096614220707004614fe000002210000010001be0b0b32461e32232d0224,
  0x882f0040800109a008439c62000a3006e00a8030100000000006614220707004614fe0000022100000200024b0b0b4b6e5a4b3c460225,
  0xa22c0000000409a0084131a6000b4006400a103020000033500685b780c0c0046287f000000e20000008002190a0a375062415c460226,
  0x942c0a0424000bb5886110a3000980046003a0501000000000953991605050346147f000000f00000000401b410042323412348320227,
  0x942e0a0434480fb58c6110a30014e0064007b0501000000000653991605050346147f000000f000000008025a10042d2d4a2d523c0228,
  0x942e2a04b4488fbd8c6514ab203c3009600ea0001000000000053991605050346147f0000000000f0000c032d100446415c50755f0229,
  0x803e082001082be64c4310e310177003c003f0001000000000027373705050346147f0000000000000004017809092d0f322d5a46022a,
  0x803e0a24a108abf64d6714eb103a1008200a800020000033600a17d7d05050346147f0000000000000008023c0909371e5f378c69022b,
  0x882e8000000109a80843906200118006400a10301000000000072220b07070046147f000000ef0000020002ff0b0b436a3c43564b022c,
  0x882c9a45100009ad0867102200091001e004100010000000000854b050a030046147f000000ee0000001001be0506232337554132022d,
  0x882c9a45900009ad08671422007d0008c00aa00010000000000854b050a030046147f000000ee00000020024b05064b412d7d6946022e,
  0x942ea80420088db48c4530eb30076003c00460201000000000016993d0e0500230f7f000001270000000401b40110462330464b32022f,
  0x942ea804a0088fb48c4534eb3012c006e00ab0001000000000016993d0e0500460f7f0000012700000410025a0110732d3a735a410230,
  0xd0ed019000114ba81b47fd22c008c008c00ac040100000000006e629304040046147f0000000000000200022d020d506761503a480231,
  0x90ad410025010ba00b41b0228000f0032003d040100000000009898980b0a0046197f000000f70000001001be070741371e551e260232,
  0x90af4100a5010ba00b41b422802fd00aa00a9020100000000009898980b0a0046197f000000f700000020025a0707695f1e91323a0233,
  0xa22c0a05000409a508653322000a50046004701010000000000210574090200461e1f0000000000000010012d050a2d3516674e360234,
  0xa22c0a05800489a5086537220032a007800ad01010000000000210574090200461e1f0000000000000020022d050a415320856c4a0235,
  0x803c0a05120049bd086550a32005f0032004702010000000000818181090400461e1f0000000000000004012d02052d4a462d70370236,
  0x803c2a859200c9bd086554a320140008c00b102010000000000818181090400461e1f0000000000000008022d020541706e418c4b0237,
  0x902c400028000ba0a841307200136003c0042030100000000096a3c010a0a0046147f000000fb0000004001be03033e28413e32320238,
  0x902c4001a8088ba0a94f34720043100be00a6030100000000066a85010a0a0046147f0000011900fb0008023c0303523c4b525f500239,
  0x943e014024080bb80a4130e38007d004600420701000000000095959505050346191f0000000000000100014b1010285041284128023a,
  0x943e0140b4088fb84a4134e38032b00a000b30701000000000095959505050346141f0000000000000200022d10103c78693c693c023b,
  0xc03e001000081ba00849b0629003a0028003c070100000000005c6538050504460fbf000000000000004001ff000028284b283237023c,
  0xc03e001080089ba00859bc629004b003200a5070100000000005c6538050504460fbf0000000000000080023c00003c41733c5f4b023d,
  0x90af091024190bb41b49b8a2c003a0028003a0601000000000017ac770808034614bf000000000000040001c80d0d41372d321e2d023e,
  0x90af091024190bb41b49b8a2c00b4004600890601000000000017ac770808034614bf000000000000080002640d0d554b37462d3c023f,
  0x90af0910a4190fb41f49bca2c01b8009600dd0601000000000017ac770808034614bf0000000000000c0003320d0d6e5f415f37460240,
  0x80ed49300c0109a41b51b822c000a001e003a0301000000000090628e0b0b0346147f000000000000010001c80d0d326914281e2d0241,
  0x80ed49300c0109a41b51b822c0050003c00820301000000000090628e0b0b0346147f000000000000020002640d0d3c7d1e3228410242,
  0x80ef49308c0989a41b51bc22c00c9006400dd0301000000000090628e0b0b0346147f000000000000030003320d0d557d1e4b416e0243,
  0x822c0080000449a808417126000370032003d010100000000005d913304020046147f000000000000000101be020a322c37322c3e0244,
  0x822c0080800449a808417526000f2008200a6080100000000005d913304020046147f0000000000000080022d020a3f57623f574b0245,
  0x806c0400080009a008413ba6000390028003d080100000000008551730a0a0546147f000000f60000010001ff0e0e3c412c3232240246,
  0x806c0400080009a008413ba60019a006e008a080100000000008551730a0a0546147f000000f60000020002780e0e4b503b4141330247,
  0x806c0400880009a008413fa60023f008200f1080100000000008575730a0a0546147f0000000000f60300032d0e0e5f6e4f555f470248,
  0x892e0010000119a00a43b862100c3003c004309040000000000209d2205050046147f000000000000004001be0b0032284b323c3c0249,
  0x892e0050800119a00a43bc621039d00be00a605040000000000209d2205050046147f0000000000000008024b0b00463c5f466450024a,
  0x813c0018021809a8085978a20003200280096080100000000094e090905050046147f000000000000008002c8020c3c4b673c4b37024b,
  0x802cd040000309a8084130220003b0032003f01010000000000633d44030300460f7f000000000000000401c806062d283c2d4b32024c,
  0x802cd040c04389a8084134220014a006400ad070100000000008e4b44030300460f7f0000000000000008024b0806693c14698746024d,
  0x882e0000200109a0884330720000a0014003b08010000000000901b1b07070046147f000000570056000101be030b37370f2d3745024e,
  0x882e0000a00109a08843347200069003c00a208010000000000901b1b07070046147f0000005700560002024b030b50551e465572024f,
  0xf2ad0100010509a0ab41b3a60014a007800430801000000000006820b0b0b0046147f000000000000040001be070a5541283228370250,
  0xf2ad0100810509a0ab41b7a60054600dc00a80801000000000006820b0b0b0046147f0000000000000800023c070a69553c463c640251,
  0xa22c0100000409a00b41bb268013c007800a509010000000006905d830c020446287f0000000000000002024b0a0a2d2841504ba50252,
  0x812cd01800110ba008c9382200006000a004002010000000000447f0e03030046147f000000000000004001be0c06323941322f320253,
  0x812cd01880110ba008d93c220008f005000a502010000000000447f0e03030046147f0000000000000080024b0c063c616c3c4d460254,
  0x886c8031280108a0084b1062000bc003c003d07010000000000a0a0a00a070046147f000001200000001001ff080b56180a5b322c0255,
  0x886e8271b80108a9085b14620044c006400ab070100000000006ba0a00a070046147f0000012000000020025a080b743614835e4a0256,
  0x816c0019001008a108491422000d2001e003c070100000000001d3a390a0a034614ff0000000000000010018208083c2d1e4637280257],
  [0x816c0019001008a108491422001fe003c009a070100000000001d3a390a0a034614ff0000000000000020023c08085546325f503c0258,
  0x81ec0019801008a1085914220032a003c00ea070100000000001d3a390a0a034614ff0000000000000030031e080855465a73643c0259,
  0x1000100000000000000000300140037080100000000001a1a1a0b0b0546147f000000000000004001be0c0c282d3c283723025a,
  0x817c0018021009a008593822000dc0078008e010100000000001a1a1a0b0b0546147f0000000000000008023c0c0c464b28465541025b,
  0x817e2818821009a44c593c232032500d200e8010100000000001a1a1a0b0b0546147f000000000000000c031e0c0c506932507355025c,
  0x90ad091004115ba41b49b822c005a0032004301010000000000941c8c08080046147f000000000000010001ff0d0d37551e373737025d,
  0x90ad091084115ba41b49bc22c0159006400aa05010000000000941c8c08080046147f0000000000000200025a0d0d5f7d284b4b4b025e,
  0x90ad010025012be24b4390e28001f001e0037080100000000009731120b0b0346147f000000000000010001be0907374114371e32025f,
  0x90ad010025012be24b4390e280082003c0082040100000000009731120b0b0346147f0000000000000200025a09073c5f373c283c0260,
  0x90ad0100a5012be24b4394e280157006400ea040100000000009731120b0b0346147f0000000000000300032d09075a91505a373c0261,
  0x400000000802c9040a00a09ac084130e3200b4003c0040030100000000007f684f0e010523287f0000000000000004014b0f0f281e393c572e0262,
  0x400000000802cb040b00a09ac084130e32016800640090030100000000007f684f0e010523287f0000000000000008023c0f0f3228434675420263,
  0x400000000822eba40b04a89ac0c6134e32041f00b400f3020100000000007f684f0e010523287f000000000000000c032d0f0f463c615a934c0264,
  0x822e0400100819ac08413326000550032003d080100000000009bca5105050046147f000000000000000401780e0e283c282846370265,
  0x822e0e44900899ac0c4137af00a28010400b10801000000000021ca5105050046147f0000000000000008023c0e0e50463250825f0266,
  0x806c84020a0009a018433f26005c8006e00b4010100000000001a1a1a0a0a004619ff000000f60000080002190e0e875f693232500267,
  0x802c4000000109a088c130320004d0028003d000100000000008e4b5d030300460f7f000000000000001001c806064128195528320268,
  0x803c4000800189a188c13432000fd005000ad00010000000000543c5d030300460f7f0000000000000080024b06063c64912846500269,
  0x822c4a14200409a5a87930220006e004600a5050100000000000807090b020046147f000000ed00000002024b0c0463512054426d026a,
  0x803e894422088dac1c4130ea900c8005a00460201000000000078902708050346197f000000000000000401b4010132374132552d026b,
  0x803e8944a2088dac1c4134ea90163008c00b30601000000000078902708050346197f0000000000000008022d01013c5f693c7d41026c,
  0x400000000966c2a00b01889bcc86534e32056e00a000aa00010000000000687d18010e00461e7f000000fa00000008022d0f0f5a3c305a784d026d,
  0x802e0a2100088ea40f61b122003980064003d030100000000006367590a0a004619ff0000010d0000000401be0704322323324a3b026e,
  0x806e0aa580188ea40f6bb52200ce4011800a9030100000000006367590a0a004619ff0000010d00000008025a0704503737507c59026f,
  0x942e9051340a0fbd0c4130a20006600320044000100000000002e278008080023147f00000000000000040178081028283c46552d0270,
  0x942e9055b40a8fbd0c4134a2002bc00a000ac000100000000002e278008080023147f0000000000000008022d0810463c46647d410271,
  0x832c8a44e00009ac086130e2103b200a000ac050100000000002b9d7805050046147f0000000000000008022d00005f28375f6e5f0272,
  0x803c0880102049ac0841706a100690032004608010000000009377d33040405461400000000000000000401be020032253c3253460273,
  0x803c0880902049ac0841746a1019a009600b300010000000006807d330404054614000000000000000008023c02004b39504b7b640274,
  0x943c018024004bbc0a4170e20005a0032004a05010000000009858e910404052314fe000000000000001001be0210412d3c4b37460275,
  0x943c0180a4004bbc0a4174e20018b007800b305010000000006858e910404052314fe0000000000000200023c02105f375069416e0276,
  0x802c00009108abae484330e200244008c00a90001000000000049125205050046147f0000000000000200025a09094269414261550277,
  0x806c1815900109ad084110220014a001e00a90701000000000036374403030046147f0000000000000020025a080630306d706d3a0278,
  0x400000000902c211000000bb0084130e3100ad0050003c010100000000003737370e0e0523287f0000000000000004012d0f10322d263241340279,
  0x400000000902c211000000bb0084130e3101f4008c0093010100000000003737370e0e0523287f0000000000000008022d0f1046413a465548027a,
  0x400000000927c2b94a250dbb6586174e31064000b4010e010100000000001a1a1a0e0e0523287f0000000000000300032d0f105a7d625a695c027b,
  0x813c0000030028e249c3986280120006e00480801000000000044313103030546287f0000000000000004012d090637323c375537027c,
  0x813c8080830028ea49c3dc62801cc00a000f80801000000000044313103030546287f000000de00de0300030f0906698764413c55027d,
  0x806c915d800288a9184194a3909c400d20105010100000000009a9a9a0f0f052350ff000000000000003003030108485a6c815a5b027e,
  0x802c9b45800288ad186594a390a2800be0105070100000000009a9a9a0f0f052350ff000000000000000c030301055a486c5a815b027f,
  0x882e1144800388a818439ce3907d000c80105030100000000009a9a9a0f0f052350ff0000000000000c000303010b815a6c485a5b0280,
  0x903e0080a6688bb8ad4534aa002760096010503020000033b00809e9e0f0f055a7800000000000000000c03030202507d6f46734f0281,
  0x917e0098e4788bb0ad5d34aa002620096010501020000033c00809e9e0f0f055a7800000000000000000c0303020c507d6f46734f0282,
  0x400000000802c2884b148f8e65b43dc6220ce40140013208010000000000a3a3a30f0f050078ff00000000000003000303090f78965a6478640283,
  0x400000000816c289cb058d8a41b59fc2220d7a0122013204010000000000a4a4a40f0f050078ff000000000000000c03030c0f64785a7896640284,
  0x803e0ac5a84889a5ad65142a802a80096010e05020000033d007d9f9f0f0f055a78000000000000000300030302045073655a7d590285,
  0x400000000806c2884b048d8a41b41ff6620cb2012c0129070300000338002e2e2e0f0f050078ff000000000000010503030e0f5a825f5a827d0286,
  0x822c9144800688a81841b4a7901e5008c010502020000033a009a9a9a0f0f052350ff00000000000003000303010a5a816c5a485b0287,
  0xc0bf0114b6199ca00f59bc62d0041003c010e080200000337002020200f0f056478ff0000005b005b054003030d0080805a4d4d640288,
  0x907c5091981108e8595b1f22003390096010e060500000000005858580f0f050078ff0000000000000144030308065f78635f78470289,
  0x10000000882e8a6430090dac9c4710eb1005a0028003f03010000000000ab414105050346141f0000000000000010012d0b0b2d3026413d38028a,
  0x10000000882e8a6430090dac9c4710eb101220046008e03010000000000ab414105050346141f0000000000000020022d0b0b3a38395f4e3d028b,
  0x90000000882e8a64b0098dac9c6714eb3038400a000ef03010000000000ab414105050346141f0000000000000030032d010b4b4a407a6b58028c,
  0x20000000802f010005003be24943b8625005e0028003d00010000000000aa424205050346141f0000000000000100012d09093c3e3c282d28028d,
  0x20000000802f010005003be24943b862500910064008f00010000000000aa424205050346141f0000000000000200022d0909465a493a3b3b028e,
  0x120000000c0af010085003be24b43bc62d0186009600f000010000000000aa424205050346141f0000000000000300032d0d0964726848454b028f,
  0x40000000a23e0800020c1bac084533a210046001e003f01010000000000a8434302020346141f0000000000000040012d0a0a2c3e472838290290,
  0x40000000b23e0800020c1bac084533a21006d003c008e01010000000000a8434302020346141f0000000000000080022d0a0a385361343f360291,
  0x240000000b23e0800824c1bac084537a210190009600ef01030000039d00a8434302020346141f00000000000000c0032d100a47677a435f480292,
  0x8b3e0a0420080bb58c65102a100320028002f0501000000000025a735050500460f7f000000000000004001ff00002420392624260293,
  0x8b3e0a44a0480bb58c65142a101a8006400940501000000000025a735050500460f7f0000000000000002027f04004d324e4d38550294,
  0x803c00c002006be8084150e210011001e003800010000000009b19191040403460f7f000000000000004001ff020026283e2b322d0295,
  0x803c00c003006bea484150e2100a00046008600010000000006b13131040403460f7f00000000000000800278020934385437493e0296,
  0x803c00c083006bea484354ea100f5007800af00010000000000b13131040403460f7f00000000000000c0022d0209454a7e47514e0297,
  0x19001e002804140000000000840e13030300460f7f000000000000001001ff0606191b232823260298,
  0x100000054001e004b04140000000000843d3d030300460f7f0000000000000020027806061e1b1d3c162d0299,
  0x803d410082010ba80943fc62800aa007800b908140000000000840e13030300460f7f0000000000000141032d0206325a59323450029a,
  0x952c020021003be2484330e310087003c004a05010000000000997f4f0505034614e1000000000000010001dc00093649483a323e029b,
  0x952c0200a1003be2484334e31032f009600b105010000000000997f4f0505034614e1000000000000020002410009426d6a484456029c,
  0xc82e0000000119a00943b06280001000a003d08050000000000b4a6a60606004614fe000000000000040001e111114f3d2a27262c029d,
  0xc82e0000000119a00943b062800090014008208060000036d00b4a6a60606004614fe000000000000080002781111624b342f2d36029e,
  0xc82e0000800119a00943bc6280064006e00f808050000000000b4a6a60606004614fe0000000000000c00032d11119a704b44414e029f,
  0x8b2e0a00200109a00c43306b10136005a004605010000000000b39d9d05050046147f000000000000000101c80b0b393e3430414202a0,
  0x8b2e0a00a00109a80c63346b1038e00aa00ba05010000000000b39d9d05050046147f0000000000000002022d0b0b5161443e647b02a1,
  0x922e0a44300a1dbc8c41306b10050003c00460801000000000971685908050046197f000000db0000000401dc0101302e2b3e524302a2,
  0x962eda44b48a9fbc8c6134eb3055000d200ad0801000000000071685908050046197f000000db000000080241100147453a4e7c5f02a3,
  0x973e0010801019a00841306310118007800a5080a0000034000a9a9a905050046147f000000000000004002a000005a41663c504b02a4,
  0x90ad0110201119b01949b862d0023001e00470701000000000014973305050046147f000000000000004001be0d0d3c3f4436303e02a5,
  0x90ad0110a01119b01b49bc62d0055003c00a301020000033f009e973305050046147f0000000000000080024b0d0d5153684c304a02a6,
  0x806c0860104201a81c4130220001400500041050100000000006363630a0a0046147f000000000000001001b4070825231c64502d02a7,
  0x806c0860104201a81c4130220002d0050009d050100000000006363630a0a0046147f0000000000000020025a0708312d23966e3b02a8,
  0x806c0860904209a81e4134620021200aa00ea05020000035b00b0b0b00a0a0046147f0000000000000420032d070896323c96323c02a9,
  0xc0ed0120001119b019493862800050014004409010000000000a5838306060046147f000000000000000101c81111413f173c344e02aa,
  0xc0ed0120801119b019593c62c009b005000a209010000000000a5838306060046147f0000000000000002028c111159631d48486502ab,
  0xc22d010000010ba04949b86280023002800440801000000000054afaf06060046147f000000000000001001c81111393b3142303e02ac,
  0xc22d010080010ba04949bc6280032005000a80801000000000054afaf06060046147f0000000000000020028c11114b554856505202ad,
  0x90ac090024080bb8594938e2800230028003a0101000000000097157e0c020046147f000000000000000401be0d102e252d35363502ae,
  0x90ac0900a4480bb859493ce2c01d6009600a90101000000000097157e0c020046147f000000000000000802500d104b4449585c5602af,
  0x8a2eda45340e0bbdac65b3a2001360032003d050100000000007c61b509090046147f000000000000000401780a0538273243342a02b0,
  0x8a2eda45b44e8bbdac65b7aa203c0008200af050100000000007c61b509090046147f0000000000000008022d0a0556364473694802b1,
  0xa22c0000000409a0aa4930360004900320040050100000000005b8f260e020046147f000000000000040001e10a033c3c1e3c3c3202b2,
  0x400000000a22c2000800489a0aa5934360032f00b400ad050100000000005b8f260e020046147f000000000000080002370f037b612c5a4b4102b3,
  0xa27c0840000409a0a8453132000530032004201010000000000b2b2b2090205460f7f000000000000010001e10a0a3f3a2c3e353202b4,
  0xb27c0840800489a0aa453532001610082006401010000000000b2b2b2090205460f7f000000000000020001370a0a59783b58494702b5,
  0x933e2b1800100da5085938220003c0032003a020100000000005e08570e010046147f000000000000004001be000c2b3d4621262c02b6,
  0x933e2b1880508da508593c22000d2006400a8020100000000005e08570e010046147f0000000000000140024b000c5e6d6d34373e02b7,
  0x400000000902c2a05000009ad0c61106320104005000480501000000000005adad0e0100461e1f0000000000000004012d0f052d2d304d593a02b8,
  0x400000000902c2a05804009ad0c61146320a8c00fa00b60001000000000045adad0e0100461e1f0000000000000008022d0f053b454777795202b9,
  0x986d2f15001019a51849bf27800fc008200480101000000000075aeae010100461e1f0000000000000001012d0e053f432e323b4d02ba,
  0x986d2f15801019a51979bf27808ca010e00680101000000000075aeae010100461e1f0000000000000002012d0e055c633a484d7b02bb],
  [0xc02c0100800019a01a41bc62d00eb006400b809010000000000b6383805050046231f0000000000000800022d1111826e3c41415f02bc,
  0x803e98c4a22acdbc0c4170ea100d7005000af0301000000000068540708080046147f000000dd00000008026402013f4a764b5c4e02bd,
  0x813e001880180ba8085930620001600140097020100000000003935a706050046147f000000000000008002b4110c435165393a4302be,
  0xc8ac0925080008a51945986680039001e006407010000000009051d1d0a06054619ff0000000000000410013c110596323296323202bf,
  0x400000000802c4800000009a0a84930620001c001e003c06010000000000b75d9d0e0e0523287f0000012700000400012d0f0f4b372823322d02c0,
  0x400000000802c4800000009a0a8493362000af0050009e06010000000000b75d9d0e0e0523287f0000012700000800022d0f0f71533c354b4402c1,
  0x400000000802c6a00804089a2e8793766005e100c8010e06010000000000b75d9d0e0e0523287f0000000000000c00032d0f0f966e5046645a02c2,
  0xc06c011080000bb01941bc62c001e001400a507010000000006aa9e9e0a0a0446147f0000000000000010024b110857504b5b503902c3,
  0x98af8a0011010ba01b439062000460028003e050100000000098b771e0b070046147f000000000000000401780b073c322630462b02c4,
  0x98af9a0091418ba01b639462802c6009600a6050100000000008b771e0b070046147f0000000000000008023c0b075241384c6e5502c5,
  0x98af082009110be2cb4398620003200280043050400000367000f77350b0b0046147f000000000000001001780b07372c3346423102c6,
  0x98af082089118be2cb439c620007d005a00ad05040000036a000f77350b0b0046147f0000000000000020023c0b074b3a547a5a4102c7,
  0x826c0c25000009a40841b326003e30064003d0101000000000005731401010046147f000000000000001001be0e0e23201c55453702c8,
  0x826c0e25800009a40861b727013ba00c800b40101000000000005731401010046147f000000000000002002370e0e2e2c1cb8755f02c9,
  0x400000000913d108012005bb80fc350e20005000320031060100000000008c977704040046147f000000000000004001be0f02282d37231e2802ca,
  0x400000000913d10809200dbb84fc354e220352009600bb060100000000008c977704040046147f0000000000000080022d0f0250617b50465502cb,
  0xc86e0910800098a019593c67c0866012c013201020000000000bbbbbb0f0f050078ff0000000000000003032d11116283635f837e02cc,
  0x943d08809620cab80b4174e2207ee0244013200010000000000bababa0f0f050078ff0000000000000003032d02106283635f837e02cd,
  0x400000000802e2a04800088a12c61946200bea01f4010e03050000039f00bcbcbc0f0f050078ff00000000000000030303040f5f515f79646c02ce,
  0xc8ac0925880008a519459c66c00580046010e09020000037d001d1d1d0f0f054619ff00000000000008100303110596643296643202cf,
  0x90af011084998ab01f49bce2c005a0032010e06020000038200aaaaaa0f0f056478ff00000000000003000303070d8296463c6e5002d0,
  0x806c0a24890ca8e3ec6714630079e00aa010e050100000000000b0b0b0f0f056478ff000000000000030003030a095a8246786e5002d1,
  0x10000000882e0040100359a00843d8621000f001e004005010000000000cb4141040403460f1f0000000000000001012d020b32322a37374402d2,
  0x10000000882e0040100359a00843d862100a00046009305010000000000cb4141040403460f1f0000000000000002022d020b4646344b4b4e02d3,
  0x2b70296031e00000000000000000000000000000000000000090000000883e004092035da00a47d8621016e00a000ef05010000000000cb4141040403460f1f000000000000000c032d070b6464464b6b4e02d4,
  0x20000000803c0040130029f248c110eb1002b0028004000010000000000164242050503460f1f0000000000000040012d0909283c4628412d02d5,
  0x20000000803c0040130029f248c110eb100fa0046009300010000000000164242050503460f1f0000000000000080022d090932505a32554102d6,
  0x2b80297031f00000000000000000000000000000000000000120000000943c024097c8adf24ce114eb1033e00b400ef00010000000000164242050503460f1f000000000000000c032d10095a503c5a735f02d7,
  0x40000000a22c0000020419a0084133261004b0028004001010000000000cc4343050203460f1f0000000000000100012d0a0a38422836363202d8,
  0x40000000a22c0000020419a008413326100af003c009301010000000000cc4343050203460f1f0000000000000200022d0a0a515b3245453c02d9,
  0x2b90298032000000000000000000000000000000000000000240000000e22c0100820519a01b413b26101b800b400ef01010000000000cc4343050203460f1f0000000000000300032d110a747e3c4a4a5002da,
  0x803c00c000005bc80c4550621000c001e00350401000000000f355c33040400460f7f0000009b0000000401ff02001e1e411e4b2302db,
  0x803c00c000005bc80c45506210094003c007c04010000000009355c33040400460f7f0000009e000000080278020032284b32553702dc,
  0x807c00c000007bc80c45506210104006e00da040100000000007d5c33040400460f7f000000980000000c032d02004b4b3c4b785002dd,
  0x803c000020001bb5086110a21003c00280033050100000000095badc6050500460f7f000000970000000401ff00001e1e2d1e463002de,
  0x803c020020081bb5086110a31008e004600920502000003bc065badc6050500460f7f0000009700000008027f00003c372d3c6e5802df,
  0x812c9018021009a0084938220002c0028003c07010000000009444444030300460f7f000000000000000401ff06062d372e2d3e2f02e0,
  0x812c9018021009a008493822000690032008c0301000000000fd9d9d9030300460f7f000002220000002002780c064b37245f523902e1,
  0x816c9018823109a0085b7c22001c2009600e10102000003bd001a1a1a030300460f7f0000000000000300032d0c064b912b5a464d02e2,
  0x802c0e04204c8ba40c61306a10046003c00440601000000000953593409090046147f000000990000000401e101012f2a3f39522f02e3,
  0x802c0e04a04c8ba40c61336e1070800aa00a70801000000000053593409090046147f0000009500000008023c0e01433e2b4d846102e4,
  0x803c00c0068049a90841d0a290022003c00a700040000038806d8d8d80404004614bf0000005e00000200022d020946625d46464b02e5,
  0xc03d410002010ba819c1d86280002000a003d02010000000009af137606030046147f0000005e0000004001be1106283754282d2802e6,
  0xc83d410002010ba819c3d86280005001400a202010000000006af137606030046147f0000005e00000080024b1106465f7c3c373c02e7,
  0x842c0805000019a4084110a30005c0032003805010000000009504833050500460f7f000000000000000401be0505281e3c28412d02e8,
  0x842c0845000019a40c4110ab000fa005000aa05020000038b03509233050500460f7f0000000000000008025a050541377041734b02e9,
  0xa23c0200000409a008613126000030014003d01020000038709d0d0d00c0c04460f7f0000000000000001023c0a0a19192814142d02ea,
  0x822cc400200409a0a841b336000500028003d010100000000009007c402020046147f000000f50000001001be0a03342b2d3e353202eb,
  0x822cc400200409a0a845bb3600091004600ad010100000000009007c402020046147f000000f500000020024b0a038e3523983f3202ec,
  0x802c0a0020000da5086110230044c0064004d0501000000000927c01405050046147f0000010d0000000401be0404372d2d46644602ed,
  0x802c0a00a0008da508611023023f000fa00af0501000000000627c01405050046147f0000010d00000008023c0404553723647d6402ee,
  0xa22cd400000409a008c1332200028001e0036030100000000090bc7c7030200460f7f000000f30000040001c8060a48281b34282602ef,
  0xa22cd400000409a018c1b3220033400b4009f030100000000060bc7c7030200460f7f000000f3000008000264060a84322a5c464402f0,
  0x882e9040200b09a008c390620000f001e0032090100000000097e666607070046147f000000ef0000000401be0b0b23322323372802f1,
  0x882e9040a00b0da80cc39462000b9005a00a80902000003be037e666607070046147f000000ef00000008024b0b0b5a502d5a694602f2,
  0xc82f001000010980884398620000f00140039060100000000092c1b2307070046147f000000570056040001be110b4b410f37232802f3,
  0xc82f00108011098088439822000730064008e060100000000062c1b2307070046147f0000005700560800024b110b645a1e502d3c02f4,
  0x802c800031082bf2e8c110b220030003c0040040100000000090cd4d40e010046141f000000e4000000400178090328474d282c3002f5,
  0x802ca00033082bf2e8c110b2200de007800a80402000003bf0f0cd4d40e01004614fe000000e400000080022d09033c6f753c404402f6,
  0x802c0a4020488dac0c6110ab1004400320044090100000000093867da050500460f7f0000000000000004018c0100322d32324b4602f7,
  0x802c0a40b0488dac0c6114ab3054600d200af090100000000067f67da050500460f7f0000000000000008024601003c373c507d7802f8,
  0xc82e0000000109a01843986200020001e002a06010000000009af0c660707034614fe000003740000000101eb0b0b261e20261e2a02f9,
  0xc82e000020090da018439862000520046006606010000000006af0c660707034614fe000003740000008002780b0b30283e30283402fa,
  0xc83e0000a2090da018439862000d6007800e606010000000000afd6660707034614fe000000000374000c032d0b0b62324862784802fb,
  0xc8be010002091ba008439ce280003000a00aa030100000000091ecda60707044614bf0000037300000800023c11116e52645a343302fc,
  0x88ad0b00a4d988a01f79b8e2d02f8009600ac0801000000000fb48c2705050546147f0000000000000800022d0d006e5a3c503c5a02fd,
  0x803e0a20a2498fac0e6534ea1033c00c800ac0801000000000f80dede05050546147f0000000000000008022d01013c28505a786402fe,
  0xa22c0000000409a008c130a6000780032002e07010000000000c1c1c109030046147f0000000000000040015a0a061e145028231902ff,
  0xb62c9d40b00e89acacc133be0043800c800ba07010000000000c2c2c209030046147f0000000000000020022d0a065a3c288c7d4b0300,
  0x802c4a05000109a50b611022002bc003200400501000000000908c3c30b0b00460f7f000000f700001010018c04072d460f5037370301,
  0x802c4a05848909a58b611022009c4008200a80501000000000608c3c30b0b00460f7f000000f700001020023c04074b64236e4b550302,
  0x802c0100008001801800b8860000c001e0090040100000000066dd7d7020204460f7f0000000000000800023c0a0a821e05823c370303,
  0x803c1850b00008e908413067304b500be006b070100000000000404040f0f050078ff0000000000000002010300005f5f3b5f5f5f0304,
  0x400000000867c1850b80048e94a493567303ed00e6007207120000000000e1e1e10f0f050078ff0000000000000003010300005f5f5f5f5f5f0305,
  0xc03c0b258a1009a519639c2280190001e009a050e000003a300c5c5c50a0a034619ff0000005b00000410021e0205643c3c643c3c0306,
  0x803c0b4032800d200c61106a900c7002800a801010000000000d5d5d505050546147f0000000000000008022d00005f4b414173410307,
  0x400000000806c2204a958a9e6486714fb3084800c800aa000100000000034b4b4b0e010046147f000000f90000002002460f09555b24874e3c0308,
  0x813e8038a0180ba01859102210021001e009807010000000009051fa0060500460a7f000003710000000802b4080c4928603f62410309,
  0xd0ad515035180ba00bd99caa10007001400a70204000003b209d1d1d10b0b0046147f0000009600000800022d1107693260505a37030a,
  0xa2ad0440a40c09b81941bbba800be005a00a60901000000000693addb0c0c00460f7f000001470000000802500d0a46465c466944030b,
  0x4000000008e2a2b909009d9a24a7bff63b073a012c00aa080100000000030d9dc90e010046147f0000009c0000020002460f005b8724553c4e030c,
  0x826e0a60b4410ba82e63346200834018600b503010000000003c8c8c80a0a004619ff000000000000000802190b075a5628648346030d,
  0x400000000802c3a40300299ad0c6190ab30129003c003c070100000000098e2bab0e0e0546287f0000014600000010012d0f0f2d2d2d41372d030e,
  0x400000000802c3a40304a99ad0c6190ab301d600780093070100000000068e2bab0e0e0546287f0000014600000020022d010f4641415a4b37030f,
  0x400000000806cba41b04a99ad4c6194ab3030e00a0010e0702000003c0008e2bab0e0e0546287f0000000001460030032d010f6964557d6e4b0310,
  0x2ba02cd032100000000000000000000000000000000000000000000000c93e019882225a381859fca3900cd00b40072020100000000008ce2e20f0f05460fff00000000000000c00103110c4b5f825573460311,
  0x2ba02cd032100000000000000000000000000000000000000000000000c82e010080199a301b599ce2c00ba00780072090100000000008ce3e30f0f05460fff00000000000003000103110d73825f4b55460312,
  0x2ba02cd032100000000000000000000000000000000000000000000000cc2e0944e04b983414439ceb901c700be0072000100000000008ce5e50f0f05460fff000000000000000c0103110b5f554b7382460313,
  0x2ba02cd032100000000000000000000000000000000000000000000000ea2e0100c00c18301a41bfa2800d400820072060100000000008ce4e40f0f05460fff0000000000000c000103110a825f55734b460314,
  0x100140028010100000000006d6d6d0f0f050078ff0000000000000001012d0d0d1f1d251f1d2b0315,
  0x270f000a0050010100000000000505050f0f050078ff0000000000000410012d0d0d831d25831d2b0316,
  0x85ec0b34800088e6597b9c63d08fc0154008808010000000000e6e6e60f0f050078ff000000000000000c012d080d5971616b89890317,
  0xc0ad0190933088a81b5bdf63d04b00190008806010000000000e7e7e70f0f050078ff0000000000000300012d070d6b89615971890318,
  0xc0ae8010005018a1b95998324022b0078007208010000000000e0e0e00f0f050078ff0000000000000c00012d0305837f672f356d0319,
  0x802c8a24a00a0ca40ce550aa10d0800f0007200010000000000e0e0e00f0f050078ff00000000000000240119010635354f8b8b6b031a,
  0x803c8000800a9cb00c4157a2000fa00b4007208010000000000e0e0e00f0f050078ff00000000000000c001ff0106258997258947031b,
  0xc92e0018805908a0185b3c62803e8017c007204010000000000e0e0e00f0f050078ff0000000000000300011e0c0c47ad53475953031c,
  0x806e0aa4ca4108e2486714220270f0398007203010000000000e0e0e00f0f050078ff000000000000011401190208656b3d676561031d,
  0x802c1040c00208880c41102280001001e007208010000000000e0e0e00f0f050078ff000000000000000c01ff080b1f3b6d83b53b031e,
  0x4000000001428aa24b0480aa6ec651422222b00226007204010000000000e0e0e00f0f050078ff0000000000000003010f0f1035612b3565df031f],
  [0x90ec1a75d4580aac1d631c22c08fc00f0007804010000000000e8e8e80f0f050078ff000000000000020401030d0d597f4f656b610320,
  0xc0e600388c1398001e4b1d2080325006400780702000003b500dcdcdc0f0f050078ff000000000000030001031108738241735f500321,
  0x2bb02c8032200000000000000000000000000000000000000000000000802e8904b30a9ea40e45102a900de00460078070100000000006565650f0f050078ff0000000000000048010307015a5a7d507d5a0322,
  0x90ef891080598cbc1f5bbde2c026000aa010e000400000323002e2e2e0f0f050078ff000000000000010803030d0d14b49614b4320323,
  0x90ef891080598cbc1f5bbde2c026000aa010e000400000323002e2e2e0f0f050078ff000000000000042003030d0da0465aa046320324,
  0x90ef891080598cbc1f5bbde2c026000aa010e000400000323002e2e2e0f0f050078ff00000000000000c003030d0d5a5fb45a5f320325,
  0x802d430080000ba50b61b4720004100320094050300000326008e6b6b030300460ffe000000de00000020022d0406553b24694f3c0326,
  0x806d412080000ba00b41b4720004100320094000300000326008e6b6b030300460ffe000000de00000410022d08065f45245f453c0327,
  0xc82e0140800108a009439462000340028010e030200000328002020200f0f036478ff0000009d009d00c0032d020b4b787f4b67640328,
  0x400000000902d2394b15158a80b79b463a196402b20132040200000329001a1a1a0f0f050078ff000000000000000303030f0764785a6478960329,
  0x902d011801100aa01a59386200003001e00b600060000032a001a1a1a0b0b004614ff0000000000000140022d090c6b69566b4132032a,
  0x902d011801100aa01a59386200003001e00b600060000032a001a1a1a0b0b004614ff0000000000000140022d0a0c6b69566b4132032b,
  0x902d011801100aa01a59386200003001e00b600060000032a001a1a1a0b0b004614ff0000000000000140022d0e0c6b69566b4132032c,
  0x902d011801100aa01a59386200003001e00b600060000032a001a1a1a0b0b004614ff0000000000000140022d020c6b69566b4132032d,
  0x902d011801100aa01a59386200003001e00b600060000032a001a1a1a0b0b004614ff0000000000000140022d0b0c6b69566b4132032e,
  0x802c011000050ba34a5b336600008001e009300040000032f003b3b3b0b060046197f000000f300f30001022d0909464646464646032f,
  0x802c011000050ba34a5b336600008001e009301040000032f003b3b3b0b060046197f000000f300f30001022d0a0a4646464646460330,
  0x802c011000050ba34a5b336600008001e009308040000032f003b3b3b0b060046197f000000f300f30001022d0e0e4646464646460331,
  0xc82e0040800109a0084394620005d0032009e090200000332007a7a7a07060046147f000000ef00000200024b0b0b4e5755463c460332,
  0x822c4000000409a0084133260003f001e0041010200000333099f723c0b020046147f000000000000000101be0a0a3e392230304c0333,
  0xa22c4a04800409a5a86137260012b005a00a6010200000334069f723c0b020046147f0000000000000002024b040a525c2744536f0334,
  0xa22c0000000409a0084131a6000b4006400a103020000033500685b450c0c0046287f000000e30000008002190a0a375062415c460335,
  0x803e0a24a108abf64d6714eb103a1008200bd01020000033600a17d7d05050346147f0000000000000200023c0d09698c37691e690336,
  0xc0bf0114b6199ca00f59bc62d0041003c010e080200000337002020200f0f056478ff0000005b005b0054030301004d4d805a80640337,
  0x400000000806c2884b048d8a41b41ff6620cb20168013b07030000033800a3a3a30f0f050078ff000000000000030003030e0f64aa5f5a787d0338,
  0x400000000806c2884b048d8a41b41ff6620cb2014a013b07030000033800a4a4a40f0f050078ff000000000000000c03030e0f5a785f64aa7d0339,
  0x822c9144800688a81841b4a7901e5008c010502020000033a009a9a9a0f0f052350ff00000000000003000303010a5a816c5a485b033a,
  0x903e0080a6688bb8ad4534aa00276008c010503020000033b009090900f0f055a780000000000000000c0030302025a6e7950644f033b,
  0x917e0098a4788bb0ad5d34aa00262012c010501020000033c000a0a0a0f0f055a780000000000000003000303020c50916546694f033c,
  0x803e0ac5a84889a5ad65142a802a80082010e05020000033d001616160f0f055a7800000000000000000c0303020450695b5a9159033d,
  0xd0adc100bd098bb08f5934f200195008c010e06020000033e001717170b0b0346147f0000000000001300032d03075faa8250413c033e,
  0x90ad0110a01119b01b49bc62d0055003c00a308020000033f00ac973305050046147f0000000000000080024b0d0d5153684c304a033f,
  0x973e0010801019a00841306310118007800a5080a0000034000a9a9a905050046147f000000000000004002a000005a41663c504b0340,
  0x973e0010801019a00841306310118007800a5080a0000034000a9a9a905050046147f000000000000004002a000005a41663c504b0341,
  0x973e0010801019a00841306310118007800a5080a0000034000a9a9a905050046147f000000000000004002a000005a41663c504b0342,
  0x973e0010801019a00841306310118007800a5080a0000034000a9a9a905050046147f000000000000004002a000005a41663c504b0343,
  0x973e0010801019a00841306310118007800a5080a0000034000a9a9a905050046147f000000000000004002a000005a41663c504b0344,
  0x973e0010801019a00841306310118007800a5080a0000034000a9a9a905050046147f000000000000004002a000005a41663c504b0345,
  0x973e0010801019a00841306310118007800a5080a0000034000a9a9a905050046147f000000000000004002a000005a41663c504b0346,
  0x973e0010801019a00841306310118007800a5080a0000034000a9a9a905050046147f000000000000004002a000005a41663c504b0347,
  0x973e0010801019a00841306310118007800a5080a0000034000a9a9a905050046147f000000000000004002a000005a41663c504b0348,
  0xc0af011081199bb01b49bce2c01e400a0011608020000034900b6b6b60b0b0523147f0000000000000300032d110d87a5644155440349,
  0x812c0218805899a00c59bc2200267008c011302020000034a0068686805010346147f0000000000000300032d0f0c6ea52d695f5a034a,
  0x90000000882e0240800119a088639c731061300f0011903020000034b002f2f2f07010346141f0000000000000600032d030b787a507b6450034b,
  0x120000000802c2ac09168f9ee4c6354633045100aa011d04030000034c00b5b5b50e010346141f0000000000000300032d0f095582646f824e034c,
  0x120000000802c2ac09168f9ee4c635463303ed00aa011d00030000034c004646460e010346141f0000000000000300032d0209739f644e684e034d,
  0x80af8b1485598cbf5f7bbfeec04f600e6015f06030000034e005050500f0f050078ff00000000000003000303010d649a8264be6a034e,
  0x80af8b1485598cbf5f7bbfeec014a0096015f06030000034e000f0f0f0f0f050078ff000000000000030003030d0d78c28c46966a034f,
  0x120000000802c8a449308bdee4c63146b1020800be011c0002000003500003030305050346141f000000000000000c032d010950826450a0500350,
  0x802f890080098da41f413c6ad013b008200b3000200000351004a4a4a08080046147f0000000000000080025a0d0155506455643c0351,
  0x942d0000a5002bf2ca4314e3001ef00be00d2040200000352005e5e5e05050523147f0000000000000200022d09105a8c735a5a4b0352,
  0x926c2a15f04889af4c7f37e320f6e00dc011c070200000353006f6f6f01010523237f000000ee00000030032d0808503c32e68c460353,
  0xd0ad4110b5180bb00b5934e280082007800c2040200000354009e9e9e0b0b0423197f000000f700000008022d0707535d4b4ba5400354,
  0x962c2a15b04889bf4c7d37e3209f600fa013b030200000355002d2d2d01010523287f000000000000000c032d1005785f4796a4640355,
  0x807c1040824a4ba90c41fc72004e200c800d20002000003560065656503030046197f00000000000000080219080664414b8c96460356,
  0x802c1a44804a8ba40c65346a0024e00aa00d205020000035703b8b8b803030546197f0000000000000008022d02065a4169789b410357,
  0x802c0a85a0604bbf486574e32031600d200d706020000035800b5b5b504040546231f0000000000000080022d02055f46965587500358,
  0x906c8a44b0088da40f61346b9023f008200db010200000359005b5b5b08050346191f0000000000000104022d0801468c705891460359,
  0x802e0e40800989a40e63bf260073a010e00d008020000035a0075757507010546147f000000f600000104023c0e0b69841e69845a035a,
  0x806c0860904209a81e4134620021200aa00ea05020000035b00b0b0b00a0a0046147f0000000000000108032d070832963c32963c035b,
  0x240000000b26c2a20800c89a40c653727103f300a0011c01020000035c00b2b2b202010346141f0000000000000c00032d0a0a73874e78674f035c,
  0x822c0a0090088baf4e7bb767103e800dc00cf05020000035d03b9b9b90101004614fe0000000000000002022d0000643c64647d69035d,
  0xb22c2214a04409b3487937a700bea028a00e001020000035e036868680e0c0546057f0000000000000008022d100a8246516d9b5f035e,
  0x942d1954b1521bbf4a5937e6801ea007800c608020000035f039c9c9c05050323197f0000000000000008021e10103c73733c9641035f,
  0xc0af011084198bb01b41bce2c01e00078010e0502000003600024242408080346143f000000f80000030003320d0d69af964132370360,
  0x802c0a44904a8bac0c65347a1027100aa00d2010200000361005c5c5c03030546197f0000000000000008022d010669284b73b9500361,
  0x906e0944a41a89b7ce4335e2000eb006400a80402000003620025252506050446147f0000000000000014022d11085f37327d69320362,
  0x852c001880102ba048593c23001b800b400c90202000003630016161605050546147f0000000000000080022d0c0c508787504b460363,
  0x400000000822caa44904a09af4c613463203b600be013b010200000364009f9f9f0e010546287f000000000000000c032d040f5f785c73aa6c0364,
  0x400000000a22f0390901149a91b7bfd63e02bc00e6013b060200000365001a1a1a0f0f055a7800000000000000030003030d0f78a06e6482500365,
  0x400000000a22f0390901149a91b7bfd63e020800b4013b060200000366001a1a1a0f0f055a78fe0000000000000c0003030d0f968c6e7864500366,
  0x98af082009110be2cb43986200023001e0043050400000367000f77350b0b0046147f000000000000001001780b07372c3846422c0367,
  0x98af082009110be2cb4398620004b00320043050400000367000f77350b0b0046147f000000000000001001780b07372c2e4642360368,
  0x98af082009110be2cb4398620009600500043050400000367000f77350b0b0046147f000000ef00ef001001780b07372c2946423b0369,
  0x98af082089118be2cb439c620005f004600ad05040000036a000f77350b0b0046147f0000000000000020023c0b074b3a637a5537036a,
  0x98af082089118be2cb439c620008c006e00ad05040000036a000f77350b0b0046147f0000000000000020023c0b074b3a457a5f4b036b,
  0x98af082089118be2cb439c620018600aa00ad05040000036a000f77350b0b0046147f000000ef00ef0020023c0b074b3a367a6455036c,
  0xc82e0000000119a00943b062800090014008208060000036d00b4a6a60606004614fe000000000000080002781111624b342f2d36036d,
  0xc82e0000000119a00943b062800090014008208060000036d00b4a6a60606004614fe000000000000080002781111624b342f2d36036e,
  0xc82e0000000119a00943b062800090014008208060000036d00b4a6a60606004614fe000000000000080002781111624b342f2d36036f,
  0xc82e0000000119a00943b062800090014008208060000036d00b4a6a60606004614fe000000000000080002781111624b342f2d360370,
  0xc82e0000000119a00943b06280009001400f308060000036d00b4a6a60f0f004614fe000000000000080002781111807d5c43414a0371,
  0x240000000a22c0a04800c99a42c613727103fc00be011e0102000003720021212102010346141f000000000000000c032d040a6e5f466e96640372,
  0x90000000882e1a40824b8dac0c6394633022800be011c030200000373001f1f1f0e010346141f00000000000000c0032d0f0b5591914b6e460373,
  0xd42d810035880fbc0f4130e28064a003200a8060200000374009c9c9c08080323197f0000000000000014022d07107355147d55320374,
  0x400000000c02d038080005baa4863f563200ce009600cf01020000037500b6b6b60e040146147f0000000000000800022d110f696e506e6e4b0375,
  0xc0af9b54811a9fbc1f69bcead023400a00116080200000376002727270b0b05231400000000000000000c032d010d73416e5fa5440376,
  0xc3af0110001819a25b5bbf62d0140009601a90802000003770083838306060446147f0000009e009b000202ff11007e50327e3c670377,
  0xb62c8200a0040bb4086137a70051700fa00c401020000037803adadad0c0c0523147f000000e200000008023c100a416e69468c460378,
  0x82af0310800c99aa4f61bf66c04b000c800cf090200000379034b4b4b02010046147f000000dd00000020024b0d0a50821eb44b5f0379,
  0x986c2b25a84009b5086514e301ce8041a00d607020000037a009f9f9f0a0a0046197f000000e900000020021904085f371ee67d4b037a,
  0x803c008080004ba808417462101f900dc010505020000037b00636363040403460f7f00000000000000c0032d0200508779505053037b,
  0x902c0620a80009b00a61bfa600dae00d200cb07020000037c03aeaeae0a060046147f0000000000000002024b0e0e507864507850037c,
  0xc8ac0925880008a519459c66c0116006e013b09020000037d009c9c9c0f0f054619ff0000000000000810030311056ea06e6ea032037d,
  0x806e0b21880008ad9f613c62424d500fa013b01020000037e00b5b5b50a0a052328ff000000e90000003003030d086e696e969150037e,
  0xa22c0b10800408a40c79b727810cc03d4015b01020000037f00bdbdbd0f0f050078ff000000000000030003030a0aa0b45a5a9664037f,
  0x802c2b559048a8af4c7f946b2270d01f4015b00020000038000bebebe0f0f050078ff000000000000000c030309045a965aa0b4640380,
  0xc00000000a22c2bf49069b8af4c7b376b20f500438015f03020000038100bfbfbf0f0f050078ff0000000000000108032d020f64b47364b4690381,
  0x90af011084998ab01f49bce2c1324028a013206020000038200aaaaaa0f0f056478ff00000000000003000303100d82aa503ca0500382,
  0x886c0a05890039e74863146300c8500fa00c4000200000383007d7d7d05050046147f0000000000000104029604096991146478460383],
  [0x802e001080588da00a5b37621011b008200cb050200000384007171710805008c147f0000000000000080023c01006036875e88410384,
  0x400000000802c2a84904049ae4c6174632046600b4013b01020000038500b8b8b80e0e0523287f000000fa0000000c032d020f5a787882915f0385,
  0x803cd040a2420ba88c43547200195008c00df020200000386005b5b5b030300460f7f000000f500000408032d0306500f912896410386,
  0xa23c0200000409a00861312600312033400d901020000038709d0d0d00c0c04460f7f0000000000000001023c0a0a878c1e828c2d0387,
  0x803c00c0068049a90841d0a290022003c00a702040000038806d8d8d80404004614bf0000005e00000200022d020c46625d46464b0388,
  0x803c00c0068049a90841d0a290022003c00a709040000038806d8d8d80404004614bf0000005e00000200022d020d46625d46464b0389,
  0x803c00c0068049a90841d0a290022003c00a706040000038806d8d8d80404004614bf0000005e00000200022d020746625d46464b038a,
  0x842c0845000019a40c4110ab000fa006e00aa00020000038b03634833050500460f7f0000000000000008025a05054b37524b7355038b,
  0x100000000000000000000000000000000000000000000000000000000000943e000014800bb08a4133e200026001e003304020000038c092f3752050500460f7f000000970000004001ff001023194823381e038c,
  0x100000000000000000000000000000000000000000000000000000000000943e004094800bb0aa4137fb000ff0046009104030000038d062f3752050500460f7f0000009700000080027f001050284d46474b038d,
  0x943e004094800bb0aa4137fb0041a008c009104030000038d062f3752050500460f7f0000009700000080027f001050284d46474b038e,
  0x102bc0055032300000000000000000000000000000000000000000000000812e001880189ba01d59bc22c00d2004600da05020000038f00cfcfcf060500460a7f00000000000000c0034b0d0c555f6e32553c038f,
  0x100000000000000000000000000000000000000000000000000000000000802c9e6210080ba80ce19266101900046003c08020000039009ca515105050046147f0000011e0000001001ff080e230a285a4b320390,
  0x100000000000000000000000000000000000000000000000000000000000802c9e6290088ba80ce19666102260078009e01020000039100ca515105050046147f0000011e00000020025a080e41194178644b0391,
  0x100000000000000000000000000000000000000000000000000000000000902c0502200009a00841b32700063003c003c080200000392097551510505004614bf000002890000004001be0e0e4132412829260392,
  0x100000000000000000000000000000000000000000000000000000000000d02d0502a00009a00841b727c00c7006e00b1010200000393007551510505004614bf0000028900000080024b110e64516d4b43490393,
  0x100000000000000000000000000000000000000000000000000000000000903d010034801bb80a5930e21002a0028003a010200000394099b653505050046147f000000d90000004001ff101028325a2323280394,
  0x100000000000000000000000000000000000000000000000000000000000943d0100b4801bb80a5934e31014a006e009a010200000395069b65a905050046147f000000d900000080025a1010414b733c3c410395,
  0x100000000000000000000000000000000000000000000000000000000000882c0a2d085809a74c7d1062000cb0028003c07020000039609ce052a0a0a03460f7f000002220000001001ff0c051e1e146450280396,
  0x100000000000000000000000000000000000000000000000000000000000882c0a2d085809a74c7d10620044c0064008907020000039706ce052a0a0a03460f7f000002220000002002780c052d2d23735f370397,
  0x100000000000000000000000000000000000000000000000000000000000892c0a2d885899a74c7d146300c5800aa00df07020000039800ce052a0a0a03460f7f0000000002220030032d0c0541372d8278500398,
  0x100000000000000000000000000000000000000000000000000000000000842cc8052cc80bb6ea4130f2001a40046004103020000039909df528f0b0b0046147f000001190000000101be10033228193250500399,
  0x100000000000000000000000000000000000000000000000000000000000942cc805acc88bb6ee4134f200208006400af03020000039a06df528f0b0b0046147f0000000001190005024b10036441324b6969039a,
  0x10000000000000000000000000000000000000000000000000040000000088af634088410ba0dd631c624103c044200ba02020000039b008b777707070546147f0000000000000200022d0f0b4b7d2d55695f039b,
  0x100000000000000000000000000000000000000000000000000000000000902d0a44814a9bef4e7d3762001540064009506020000039c03451f8201010046147f0000010200000020024b070950322d6e503c039c,
  0x240000000b23e0800824c1bac084537a210190009600ef01030000039d00d2d2d20f0f0346140000000000000000c0032d100a47677a435f48039d,
  0x240000000b23e0800824c1bac084537a2101900096012001030000039d00d2d2d20f0f0346140000000000000000c0032d100a479984439148039e,
  0x400000000802e2a04800088a12c6194620014f007800db04050000039f00bcbcbc0f0f050078ff00000000000000030303040f553d73476436039f,
  0x400000000802e2a04800088a12c6194620014f007800db04050000039f00d3d3d30f0f050078ff00000000000000030303040f553d7347643603a0,
  0x400000000802e2a04800088a12c61946200bea01f4010e03050000039f00d3d3d30f0f050078ff00000000000000030303040f5f515f79646c03a1,
  0x400000000802e2a04800088a12c619462017d401c2013f04050000039f00d3d3d30f0f050078ff00000000000000030303040f5f5b557964d803a2,
  0xc03c0b258a1009a519639c2280190001e009a050e000003a300c5c5c50a0a034619ff0000005b00000410021e0205643c3c643c3c03a3,
  0xc03c0b258a1009a519639c2280190001e009a050e000003a300c5c5c50a0a034619ff0000005b00000410021e0205643c3c643c3c03a4,
  0xc03c0b258a1009a519639c2280190001e009a050e000003a300c5c5c50a0a034619ff0000005b00000410021e0205643c3c643c3c03a5,
  0xc03c0b258a1009a519639c2280190001e009a050e000003a300c5c5c50a0a034619ff0000005b00000410021e0205643c3c643c3c03a6,
  0xc03c0b258a1009a519639c2280190001e009a050e000003a300c5c5c50a0a034619ff0000005b00000410021e0205643c3c643c3c03a7,
  0xc03c0b258a1009a519639c2280190001e009a050e000003a300c5c5c50a0a034619ff0000005b00000410021e0205643c3c643c3c03a8,
  0xc03c0b258a1009a519639c2280003001e00af000e000003a300c5c5c50a0a034619ff000000000000010402ff02053c64783c643c03a9,
  0xc03c0b258a1009a519639c2280003001e00af000e000003a300c5c5c50a0a034619ff000000000000010402ff02053c64783c643c03aa,
  0xc03c0b258a1009a519639c2280003001e00af020e000003a300c5c5c50a0a034619ff000000000000010402ff02053c64783c643c03ab,
  0xc03c0b258a1009a519639c2280003001e00af030e000003a300c5c5c50a0a034619ff000000000000010402ff02053c64783c643c03ac,
  0xc03c0b258a1009a519639c2280003001e00af010e000003a300c5c5c50a0a034619ff000000000000010402ff02053c64783c643c03ad,
  0xc03c0b258a1009a519639c2280003001e00af010e000003a300c5c5c50a0a034619ff000000000000010402ff02053c64783c643c03ae,
  0xc03c0b258a1009a519639c2280003001e00af060e000003a300c5c5c50a0a034619ff000000000000010402ff02053c64783c643c03af,
  0x100000000000000000000000000000000000000000000000000000000000806c0a0010001bad886110621000a001400350502000003b0099fdd0805050046147f000000ed0000104001ff08042d235a1e370a03b0,
  0x100000000000000000000000000000000000000000000000000000000000806c0a0490001bada86114621029a004600950502000003b1069fdd0805050046147f000000ed000010080232080446326e3c642303b1,
  0xd2ad515035180ba00bd99caa10007001400a70204000003b209d1d1d10b0b0046147f0000000000000800022d1107693260505a3703b2,
  0xd0ad515035180ba00bd99caa1001c002800a70204000003b209d1d1d10b0b0046147f0000009600000800022d1107693260505a3703b3,
  0xd2ad515035180ba00bd99caa1001c002800a70204000003b209d1d1d10b0b0046147f0000000000000800022d1107693260505a3703b4,
  0xc0e600388c1398001e4b1d2080325006400780002000003b500dcdcdc0f0f050078ff000000000000030001031108738241735f5003b5,
  0x2cf0055034400000000000000000000000000000000000000000000000812e0018001819a00c5938220003c002800700207000003b6061f09090f0f00460a00000000ec0000008002be0c0c32325a28372303b6,
  0x2cf0055034400000000000000000000000000000000000000000000000812e0018001819a00c5938220003c002800700207000003b6061f09090f0f00460a00000000ec0000008002be0c0c32325a28372303b7,
  0x2cf0055034400000000000000000000000000000000000000000000000812e0018001819a00c5938220003c002800700207000003b6061f09090f0f00460a00000000ec0000008002be0c0c32325a28372303b8,
  0x2cf0055034400000000000000000000000000000000000000000000000812e0018001819a00c5938220003c002800700207000003b6061f09090f0f00460a00000000ec0000008002be0c0c32325a28372303b9,
  0x2cf0055034400000000000000000000000000000000000000000000000812e0018001819a00c5938220003c002800700207000003b6061f09090f0f00460a00000000ec0000008002be0c0c32325a28372303ba,
  0x2cf0055034400000000000000000000000000000000000000000000000812e0018001819a00c5938220003c002800700207000003b6061f09090f0f00460a00000000ec0000008002be0c0c32325a28372303bb,
  0x803c020020081bb5086110a310258008c00920502000003bc065badc6050500460f7f0000009700000008027f00003c372d3c6e5803bc,
  0x816c9018823109a0085b7c22005c3010400e10102000003bd001a1a1a030300460f7f0000000000000300032d0c064b912b5a464d03bd,
  0x882e9040a00b0da80cc3946200244009600a80902000003be037e666607070046147f000000ef00000008024b0b0b5a502d5a694603be,
  0x802ca00033082bf2e8c110b22032a00d200a80402000003bf0f0cd4d40e01004614fe000000e400000080022d09033c6f753c404403bf,
  0x400000000806cba41b04a99ad4c6194ab3081b00f0010e0702000003c0008e2bab0e0e0546287f0000000001460030032d010f6964557d6e4b03c0]]

/-- resources/bin/personal/personal_uu, 976 pieces of 84 bytes -/
def personal_uu : List Nat := List.flatten [
  [0xff0000000000000000000000000000000000000000,
  0x820780000040000000010000000882e0040000119a08843987210045004600400301000000000022414107010346141f0000000000000100012d030b41412d31312d0001,
  0x820780000040000000010000000882e0040000119a088439872100820064008e0301000000000022414107010346141f0000000000000500022d030b50503c3f3e3c0002,
  0x10080820780010040000000090000000882e0240800119a088639c73103e800c800ec0302000003500022414107010346141f0000000000000600032d030b6464505352500003,
  0x80950003000000000020000000802c0840110839ee4c41106230055003c003e000100000000005e42420e010346141f0000000000000040012d0909323c412b34270004,
  0x80950003000000000020000000802c0840110839ee4c411062300be006e008e000100000000005e42420e010346141f0000000000000140022d09094150503a403a0005,
  0x4080084950003000000000120000000802c2ac09168f9ee4c6354633038900aa00f0000300000351005e42420e010346141f0000000000000300032d0209556d644e544e0006,
  0x28015e204000000000040000000a22c0020000c09a40c4133261005a0032003f010100000000002c434302010346141f0000000000000010012d0a0a40322b41302c0007,
  0x28015e204000000000040000000a22c0020000c09a40c413326100e10064008e010100000000002c434302010346141f0000000000000410022d0a0a50413a503f3b0008,
  0x808028015e204010000000240000000b26c2a20800c89a40c6537271035700a000ef010200000361002c434302010346141f0000000000000c00032d0a0a69554e64534f0009,
  0x1010000010000000000000000000000000000000000000000001d001e00270301000000000f321313030300460f7f000000000000000101ff060614142d231e2d000a,
  0x120000100000000000000000000000000000000000000000063004600480301000000000f3d3d3d030300460f7f00000000000000200278060619191e371432000b,
  0x4800024101000011000000000000000803d410082010ba80b43f47200140006e00b2080100000000006e0e0e030300460f7f000000de00000600032d0206505a46322d3c000c,
  0x100000100000000000000000000000000000000000000000020001e002705010000000000321313030300460f7f000000000000004001ff03061414321e2328000d,
  0x120000100000000000000000000000000000000000000000064003c0048020100000000003d3d3d030300460f7f00000000000000200278030619192332192d000e,
  0x64040024301000081000000000000000803cd040a2420ba88c43547200127006400b202020000038b00614444030300460f7f000000f500000408032d0306502d4b285a41000f,
  0x400000c900000800000000000000000803c008000004ba80841706210012001e003205010000000000914d33040403460f7f000000000000004001ff0200232338282d280010,
  0x400000c900000800000000000000000803c008000004ba8084170621012c006e007a05010000000000914d33040403460f7f000000000000008002780200323247373c3f0011,
  0x4400000c900000800000000000000000803c008080004ba8084174621018b009600d805020000038000914d33040403460f7f00000000000000c0032d02004646654b50530012,
  0x4010014a400806000000000000000813e001000100ba00a5933e210023001e003306020000039209373e32050500460f7f000000000000004001ff000023194823381e0013,
  0x3004010014a400806000000000000000813e005080100ba00a5937e3100b90046009105030000039306373e32050500460f7f0000000000000080027f00004632613c51370014,
  0x400000c900000880000000000000000803c008000025ba80841706210014001e003405010000000009613333040400460f7f000000f40000004001ff02001f1f461e3c280015,
  0x6400000c900000880000000000000000803c008080025ba8084174621017c0078009b05010000000006613333040400460f7f000000f400000080025a02003d3d64415a410016,
  0x2014201c4000440000000000000000902cca0020400bb4a86130720004500c8003a060100000000097f3d160e050046147f000000000000000401ff03033628372c3c230017,
  0x302014201c4000440000000000000000902cea00a0400bb4a86134720028a015e009d060100000000067f3d160e050046147f0000000000000008025a03034f4150455f3c0018,
  0x2920158031a00000000000000040004180341101012000000000000000812e0018001819a00c5938220003c002800700208000003bd061f0909060500460a7f000000ec0000008002be0c0c32325a2837230019,
  0x40004180341101012000000000000000812e001880189ba00c593c220012c005000da020200000395001f0909060500460a7f00000000000000c0034b0c0c505a6e375a3c001a,
  0x10400080340020006000000000000000802c9a6010080bad0c61906200078003c003c0202000003960992080805050046147f0000011e0000001001ff04041e1428554b32001b,
  0x10400080340020006000000000000000802c9a6490088bad0c619462001270064009e0202000003970092080805050046147f0000011e00000020025a0404372d416e644b001c,
  0x4300140000004000000000000000802c800010001ba888593372000460028003701010000000000374f260501034614fe000000000000000101eb0303282829342f37001d,
  0x10004300140000004000000000000000802c800010001ba888593372000c80050008001010000000000374f260f0f034614fe000000000000000202780303373738433e46001e,
  0x30484380156827884000000000000000822caa0490889bbfee7d37f300258008200e3010100000000007d4f260f0f034614fe0000000000000003032d0403554b4c575c5a001f,
  0x4300140000084000000000000000802c800050001ba0885933720005a0032003706010000000000374f26050103461400000000000000000401eb030328283228392e0020,
  0x10004300140000084000000000000000802c800050001ba088593372000c3005a008006010000000000374f2605010346140000000000000000080278030337374139483d0021,
  0x30484380156827884000000000000000822caa04d0889bb7ee7d37f30026c008c00e3060100000000007d4f26050103461400000000000000000c032d04034b55554d66510022,
  0x176e3c336a48f112000000000000000c02f0110001819a25f5bbb62d004b003c0071090100000000068462380606048c0abf000000510000000202961111413c23302d460023,
  0x4176e3c336a48f112000000000000000c02f0110801899a25f5bbf62d0190008200d9090100000000006d62380606048c0abf0000005100000003031911115a5f3c49465f0024,
  0x1011948040002000000000000000902c0100210129e24841906300063003c003c050200000398094612120505004614bf000000f90000004001be09094132412829260025,
  0x40001011948040002000000000000000902d0100a10129e248439463c00c7006e00b1020200000399004612120505004614bf000000f900000440024b09096451644b4c490026,
  0x37443d332248f102000000000000000c12f0130001819a25f5bbb62100370032005f0901000000000684ac38060604460abf000000510000000202aa1100192d14142d730027,
  0x437543d332248f102000000000000000c12f0130801899a25f5bbf6210078006400c40901000000000077ac38060604460abf00000051000000030332110032552d2d468c0028,
  0x4200024908000804000000000000000803c008022004bb88ac170f20004b005000310601000000000f972727040400460f7f000000000000004001ff0203281e37232d280029,
  0x4200024908000804000000000000000803c0080a2004bb88ac174f20022600a0009f06010000000009972727040400460f7f0000000000000080025a02034b415a46504b002a,
  0x2c20500000040000000000000000c82e4040000109a08843107200036003200400101000000000032222207070346147f000002210000010001ff030b414b1e37322d002b,
  0x2c60500000040000000000000000c82e4040000909a088431072000560050008a0101000000000001222207070346147f00000221000002000278030b4b552846413c002c,
  0x2c60500000040000000000000000c82e4040800909a088439472000ba007800dd000100000000001b222207070346147f0000022100000300032d030b5a6e3255504b002d,
  0x2820700000041000000000000000882e104000030ba88cc3187200036001e00390001000000000906571b07030046147f000000570056000401be0b06372d19374623002e,
  0x20002820700000041000000000000000882e104080030ba88cc31c72001270064008e0001000000000606571b07030046147f0000005700560018024b0b06503c1e505f3c002f,
  0x800020108000011000000000000000802c400000000ba089c310720012c0064003d06010000000000326e0e03030046147f000000000000040001be030637282d32373c0030,
  0x4800024108000011000000000000000803c400082010ba889c354720007d0096009e06010000000000936e1303030046147f0000012700000140024b03064b5a5a3c41460031,
  0x10400000100020000000000000000000802c0a0010001bad8861106200008001400350502000003b7099f470805050046147f000000ed0000104001ff04042d235f19370a0032,
  0x10400000100020000000000000000000802c0a0490001bada86114620014d004600950502000003b8069f470805050046147f000000ed00001080023204044632783264230033,
  0x20201300362440c42000000000000000903d010030001bb80a5930e21002a0028003a02020000039a097f653505050046147f000000d90000004001ff000028285a232d280034,
  0x20201300362440c42000000000000000903d0100b4001bb80a5934e3101400064009a02020000039b067f650705050046147f000000d900000080025a00004141733c46410035,
  0x1020a8114e004010000000000000000a22c0100100c09a80d413b26c00c4005000400201000000000f210d0605020046147f000000000000010001be0a0a3241373034320036,
  0x49020a8114e004210000000000000000a22c0100900c8da80d413f26c02fe00aa00af01010000000006210d0605020046147f0000000000000200024b0a0a505f554e52500037,
  0x100c5081140007e4a000000000000000803c8a002208afac0c7d30ea101180032003d0501000000000980534805050046147f000000000000000401be01012d23462350280038,
  0x300c5081140007e4a000000000000000803c8a04a208afac0c7d34ea101400064009f0501000000000680534805050046147f0000000000000008024b0101463c5f3c69410039,
  0x84000940000002000000000000000852c000001002bea48419063000be00460046050100000000099a121605050546143f000000000000000401be090932463c2d4637003a,
  0x40084000950000022000000000000000852c020081002bea484394630060e00be00c2050100000000009a121605050546143f0000000000000008024b090950645f506e5a003b,
  0x44200102000000000000000000000a22c000000040ba0094133260007c003c003c0101000000000921060b02020346147f000000000000004001ff0a0a28285a283228003c,
  0x44280102004000000000000000000a22c0200000c0ba00d613326000c8006400870101000000000621060b02020346147f000000dd0000008002780a0a32325a414141003d,
  0x20044280102004008000000000000000a22c8a00a00c8fa40d61372e1021c008200e60101000000000021060b02020346147f000000dd00000030032d010a5a46465f5f5a003e,
  0x3b381c13480cf010000000000000000c0af011004190bb01b41b8e2c00c3005a003e0501000000000962271c08080346143f000000f80000010001c80d0d37695a0f1419003f,
  0x3b381c13480cf010000000000000000c0af011004190bb01b41b8e2c02350082008c0501000000000662271c08080346143f000000f80000020002640d0d4678691e23280040,
  0x43b381c13480cf010000000000000000c0af011084198bb01b41bce2c01e0009600e10502000003650062271c08080346143f000000f80000030003320d0d5f87782d32370041,
  0x4081300807208000000000000000802c8a0020088fa64c65386a100c30050003d0701000000000950633e08080346143f000000e60000000401b401012323233250460042,
  0x10004081300807208000000000000000802c8a0020088fa64c65386a102c10096008e0701000000000650633e08080346143f000000e600000008025a01013c322d4664500043,
  0x30004081300807208000000000000000802c8a04a0088fa64c653c6a1051400a000e30701000000000050633e08080346143f000000e60000000c032d010155413750825a0044,
  0xc20780000040000000000000000882ec04000010ba098431072000280046003c0301000000000052222207070346147f000000000000000401ff030b1e4628234b320045,
  0xc20780000040000000000000000882ec04000010ba09843107200040006400890301000000000052222207070346147f00000000000000080278030b2d5537325a410046,
  0xc20780000040000000000000000882ec04080010ba0984314720009b00aa00dd0301000000000052222207070346147f000000000000000c032d030b4664464169500047,
  0x220382008000000000000000000e22cc04020040ba0a841b336001c7005a00430101000000000f2c401d09090546147f000000f50000040001be030a6432462328280048,
  0x220382008000000000000000000e22cc040a0040ba0a841b7360022600a000b4010100000000062c401d09090546147f000000f500000800023c030a7850644146500049,
  0x400080100a33000000000000000000882c0a25080809a74c651062000c80028003c05020000039c090805450a0a03460f7f000000e50000001001ff04051e1e14645028004a,
  0x10400080100a33000000000000000000882c0a25080809a74c6510620041a0064008905020000039d060805450a0a03460f7f000000e500000020027804052d2d23735f37004b,
  0x10400080100a33020000000000000000882c0a25880889a74c65146300bb8008c00df05020000039e000805450a0a03460f7f000000e500000030032d040541372d827850004c,
  0x2000000940000300000000000000000812c0000010039e2484310620012c006400520201000000000031123205050046147f000000000000004001be090941415a375532004d,
  0x22000000940000380000000000000000812c8000c10039e248431462003b600aa00af0201000000000031123205050046147f0000000000000080023c0909505069466441004e,
  0x192a20014e01801000000000000000082af0310000419a24b61bb66c01680078003f0901000000000990140c02010046147f000001170000000101be0d0a28280f41415a004f,
  0x192a2c014e25c01000000000000000082af0310800c99aa4f61bf66c031100a000ac09020000037e0390140c02010046147f000000dd00000020024b0d0a50641e6e4b5f0050,
  0x100100101388010000000000000000816c0138081008a0185938620003c001e00410701000000000994052a0a0a004614ff000000e90000010001be080c375f2d4623190051,
  0x100100101388010000000000000000816c0138881008a018593c6200258006400a30701000000000694052a0a0a004614ff000000e900000200023c080c4678465f3c320052,
  0x6400400cb40400802000000000000000803c81c002424ba80841506210096005000840501000000000080273305040046147f0000010300000004022d02003e3a3c375a340053,
  0x40000300000800000000000000000802c00c000005ba80841506210188008c003e050100000000004d303204040046147f000000f40000000401be020023234b2d55230054,
  0x10040008300000800000000000000000802c00c0a0005bb8084154e21035400b400a5050100000000004d303204040046147f000000f400000008022d02003c3c6e466e3c0055,
  0x200146000090000000000000000a22c000040081ba00841b32600384006e004108010000000009735d2f05020046147f000000000000040001be0a0a462d2d372d410056,
  0x8000200146000090000000000000000a22c0400c0081ba00841b726004b000aa00a608010000000006735d2f05020046147f0000000000000800024b0e0a5f464650465a0057,
  0x130100007400000000000000000802cc80028080bb6ea5930f20012c005a004106020000039f098f3c010b0b0046147f000001190000000101be03033228193250500058,
  0x1b0100017400000000000000000902cc800a8088bb6ee5934f20012c007800af0602000003a0068f3c010b0b0046147f0000000001190005024b03036441324b69690059,
  0x8000200102200000000000000000000822c0000280009a00841332600028001e003d060100000000098e5c4b09090546147f000000590058001001be0a0a192d2864411e005a,
  0x8000200102200010000000000000000822c8400e80009b0084137260052d009600b8060100000000008e5c4b09090546147f0000005900580020023c0e0a2d5546b45f32005b,
  0x3a29030302047800000000000000000d0ad41002d010bb08b4930f2000010082003e060100000000091a1a1a0b0b0346147f000000000000010001be03072364501e231e005c,
  0x3a29030302047800000000000000000d0adc1003d090bb08b4930f20000100a0008e060100000000061a1a1a0b0b0346147f0000000000000200025a030737735f2d322d005d,
  0x43a290f1302047800000000000000000d0adc100bd098bb08f5934f200195009600e1060200000343008282820b0b0346147f0000000000000300032d03074b826e3c413c005e,
  0x104000001d0030020000000000000000886c2b25284009b5086510e3008340370004d070100000000008505450a0a0046197f0000000000000010012d04052d1e46a02d23005f,
  0x3b180c110804f210000000000000000c0af011000080fb01f41b8e2c01440064004202010000000009276c0f08080046147f000000000000040001be0d0d5a2b2a2d303c0060,
  0x3b180c110804f210000000000000000c0af011080088fb01f41bce2c02f400a000a902010000000006276c0f08080046147f0000000000000800024b0d0d7349434649550061,
  0xa000200302a00000000000000000000822c1840000e0ba40c4133260004100280041000100000000007d4b3409090046147f000000000000000401e10a0a1919325a691e0062,
  0x1a000200302a00000000000000000000822c1840808e0ba40c41372600258008200a6000100000000007d4b3409090046147f0000000000000008023c0a0a32324b7382370063],
  [0x100100148010000000000000000812c003808100ab0085938a20006800320042000100000000006a092b0a0a004614ff000000000000004001be0c0c373764321e280064,
  0x1000100100148010000000000000000812c003888100ab008593ca20029a007800ac000100000000006a092b0a0a004614ff0000000000000080023c0c0c50509646323c0065,
  0x180082050009084000000000000000088af414008010ba09943186200019002800410901000000000f8b222207070546147f0000037200000010015a0d0b2d3c2850283c0066,
  0x1180082050809024000000000000000088af414088010ba099431c62404b000c800ba0202000003a1008b222207070546147f0000000000000200022d0d0b4b7d37555f5f0067,
  0x440080342223a20000000000000000802c0a40004a1baf4c65136200041002800400501000000000f041f4501010046147f000001020000001001be04043228235f32320068,
  0x704c0080342223a20000000000000000802c0a44804a9baf4c651762001c2006400950503000003a203041f4501010046147f0000010200000020024b040450322d6e503c0069,
  0x50004081300800302000000000000000802c8a0400088fa40c61306a101f20096009f050100000000005478070808004619000000000000000008022d01016e2357357832006a,
  0x600040c1100007202000000000000000802c0a0400088fa40c61306a101f6008c009f050100000000002759330808004619000000000000000800022d01016e234c4f6932006b,
  0x100003803ce007000000000000000000822d2b4080480ba74e7b37621028f0078004d090100000000030d0c1401010046147f0000011700000002012d00004b3c1e4b375a006c,
  0x1110100000800000000000000000902c402029000bb2ca5930f20000a003c0044060100000000001a1a1a0b0b0046147f000000e40000001001be03032d3c235f4128006d,
  0x1110100000800000000000000000902c4020a9000bb2ca5934f20005f007800ac060100000000001a1a1a0b0b0046147f000000e400000020023c030346553c785a41006e,
  0x10441100156820880000000000000000802c8a4560000ba7487d33630047e006400450701000000000078451f05010546147f0000000000000010017805041e1e195f5550006f,
  0x104c1180156837880000000000000000822caa45f0488ba74c7d3763004b000be00aa0701000000000078451f05010546147f0000000000000008023c05042d2d287882690070,
  0x53f443c216a487002000000000000000c12f0b10801819a74f7bbf669015a006e018b0901000000000983201e0606048c28fe0000000001000002021e00006923320505fa0071,
  0x40930780000040000000000000000882e414080010ba0984314620015e006400570101000000000090662207070046147f0000000000000010012d0b0b28643c7337410072,
  0xc53c0146007a02000000000000000822c0a0090088baf4e7bb7671032000dc00ac050200000362032771300101004614fe0000000000000002022d000050285a505f690073,
  0x80200112000110000000000000000a26c0000000409a008413326000500028003b010100000000000661210e020046147f000000eb0000010001e10a0a19463c46281e0074,
  0x40080200112000110000000000000000a26c0000800409a008413726000fa0078009a010100000000000661260e020046147f000000eb00000110024b0a0a2d5f555f41370075,
  0x20000200306000190000000000000000a22c8000400409a00841332600096003c0040000100000000091f29210c0c0046147f000000f30000000401e10a0a32233f3c432d0076,
  0x20000200306000190000000000000000a22c8000c00409a008413726001860082009e000100000000061f29210c0c0046147f000000f300000008023c0a0a504144415c500077,
  0x100210102088010000000000000000e26c0130000408a019593b26001590050004405010000000009941e230909054614ff0000005b005a004001e10a0a374655372d1e0078,
  0x3928210102088010000000000000000e2ef0130800408a019593f2640320006e00b606010000000000941e230909054614ff0000005b005a0080023c0d0a556473554b3c0079,
  0x3b3c1c110a24f012000000000000000c0af4110a0198bb81f5bbce2c0221008200a109010000000000656f2b08080046197f0000000000000800022d110d78645a412d28007a,
  0x44000004300000001000000000000000803c104080424ba80c41fc6200230009600640301000000000350654403030046197f0000000000000004012d0206503769506e46007b,
  0x393c2c312a00c01200000000000000080af0502a0099bb01f413fa6c0196008c009f00010000000000576c0c0808004619fe0000000000000200022d0d0e5f735f233241007c,
  0x418014110721a000000000000000812c001880188fa00d593c220012c006e00ac0201000000000648090908080046193f0000014200000080022d0c0c555f69395341007d,
  0x408094000320a000000000000000802c00008108afe24d411462001bd008200ad0001000000000648313108080046193f0000014300000200022d090955645d395f41007e,
  0x20400080380a00001000000000000000802c1a44804a8ba40c65346a00226009600af05020000035c0399683403030546197f0000000000000008022d0606463755647d41007f,
  0x100c530114a000820000000000000000832c0a04e00009a7487b376210374008c00ac050100000000037d53160505054614000000000000000044022d000046286e5f644b0080,
  0x10000000000000000000000000000000000000000000064005a0028000100000000099b21210e0c0546057f000000000000004001ff0a0a140f50370a140081,
  0x81200156000920000000000000000b22c2214a04409b3487937a70092e028a00bd010200000363039916160e0c0546057f0000000000000008022d020a643c514f7d5f0082,
  0x8030217e0100b0000000000000000a22d0600c00019a00959b7270089800fa00bb010100000000035d4b0b02010546287f000000f300f30002022d0e0a5f553c5055820083,
  0x28001e0065060100000000099607070d0d004614ff0000010101120001022300003030303030300084,
  0x2be0183032500000000000000040004002160400002000000000000000802c0000000019a00a41306210041001e0041050100000000096b5b3205050046231f0000000000000400012d0000412d373237370085,
  0x40004202166400012000000000000000a22c0000800419a00a41376710122006400b8010100000000005d0b0b05050046231f0000000000000002022d0a0a5f6e413c41820086,
  0x40004102160500012000000000000000812c0018801019a00a593c63100f5005000b8020100000000005f0a0a05050046231f0000000000000080022d0c0c5f6e823c41410087,
  0x40004002960c00002000000000000000802c0000810039e24a413463100fa005a00b8000100000000003e121205050046231f0000000000000008022d09096e5f413c82410088,
  0x312811014b5c801000000000000000080ad011080100aa80b5b37624016d0050004f090100000000099458240a0a004614ff0000000000000100012d00004b5528463c410089,
  0x400200382220000000000000000000a22c082100040ba5084533260004b0028004701010000000000854b21090200461e1f0000000000000010012d0a05375a23642823008a,
  0x400200382220000000000000000000a22c082580040ba5084537260015e006400ad01010000000000854b21090200461e1f0000000000000020022d0a054673377d3c46008b,
  0x400220302220000000000000000000a22c080100040bad08453326000730032004705010000000000850421090200461e1f0000000000000010012d0a052d37375a501e008c,
  0x8400220306a20200000000000000000aa2c184580040bad0c45372600195008200ad05010000000000850421090200461e1f0000000000000008022d0a0546415069733c008d,
  0x4440000c954020020000000000000000802c0a85a0604bbf486574e32024e00b400b406020000035d007f2e4504040546231f0000000000000080022d02054b3c82416950008e,
  0x2bd01a003240000000000000001038238012ac17462000000000000000832c0a00800889a74f7f3762111f800d200bd04010000000000522f1101010546281f000000ea00ea0002021900006e411e416ea0008f,
  0x4400020c102000010000000000000000803c0482802048a9184177670022a00aa010501010000000000512e2e0f0f052350ff0000000000000c000303020e7d5f5564555a0090,
  0x4400010c900000010000000000000000813c0098803048a908597c630020e00a0010502010000000000092e2e0f0f052350ff00000000000003000303020c5a7d64555a5a0091,
  0x4400000c900000000000000000000000803c0080812068eb4843f4630025800c8010502010000000000312e2e0f0f052350ff000000000000030003030209557d5a5a645a0092,
  0x803001d6000000000000400000000a22c2010004009a24859bf660002100b4003c010100000000093f3d3d0e020523287f000000eb00000004012d0f0f3232322d40290093,
  0x803001d6000000000000400000000a22c2010004009a24859bf66000a501900093010100000000063f3d3d0e020523287f000000eb00000008022d0f0f46464641543d0094,
  0x40803849d6807020000000400000000a22c2a948068c9af4c79ff672083400dc010e050100000000008827270e020523287f000000eb0000000c032d020f6464505f865b0095,
  0x41b383c114e0cf21000000000000000080af8b1485598cbf5f7bbfeec04c400c80132060300000353007f2e2e0f0f050078ff000000000000030003030d0d5a9a825a6e6a0096,
  0x2bf005e03260000000000000007ffffffffffffffff000000000000000fffffffffffffffffffffffff00280028010e090100000000001c1c1c0f0f036478ff0000009d009d0003032d0d0d6464646464640097,
  0x820540008040000000010000000882e0040000119a01843986210040005a00400301000000000066414107010346141f0000000000000400012d0b0b41312d41312d0098,
  0x40000820540008040000000010000000882e0040000119a0184398621009e0078008e0301000000000066414107010346141f0000000000000410022d0b0b503f3c503e3c0099,
  0x50080820540008040000000090000000882e2240800119a018639c62103ed00b400ec0301000000000066414107010346141f0000000000000810032d0b0b645350645250009a,
  0x900000002000000020000000892c0000010029ea484110621004f0032003e0201000000000012424205050346141f0000000000000040012d0909323c412b3427009b,
  0x80900000002000000020000000892c0000010029ea4c411063100be005a008e0201000000000012424205050346141f0000000000000140022d09094150503a403a009c,
  0x70000080900003202000000120000000892c0a209108a9ee4c6314631031b00aa00f00201000000000012424205050346141f0000000000000300032d0909556d644e544e009d,
  0x1280146814a00000000040000000a22c0840100c09ac0c4133263005f003c003f010100000000007d434302010346141f0000000000000004012d0a0a302c2b404132009e,
  0x1280146814a00000000040000000a22c0840100c09ac0c413327300fa006e008e010100000000007d434302010346141f0000000000000014022d0a0a3f3b3a505041009f,
  0x8081280156814a00000000240000000a22c2a40900c89ac0c6137273037800e600ef010100000000007d434302010346141f0000000000000018032d0a0a534f4e64695500a0,
  0xc380364407806000000000000000823e000010581ba04e4b31621003c0050002b05010000000000773332050500460f7f000000000000000401ff00002d2314222e2300a1,
  0xc380364407806000000000000000823e000090589ba04e5b37621014500b4009105010000000000773332050500460f7f0000000000000080025a0000372d5a404c5500a2,
  0x410000c928008800000000000000000802d018000005ba81b417062100d400460034050100000000096e330f040400460f7f000000000000000101ff02003824321e1e3c00a3,
  0x4410000c928008800000000000000000802d018080005ba81b4174621019800a0009e050100000000066e330f040400460f7f0000000000000002025a020060564632326400a4,
  0xe4300005801000000000000000803c404002080ba81c43d8620006c00640035000100000000099b3044030304460f7f000000000000040001ff02065028371e142800a5,
  0x40000e4300005801000000000000000803c404082088ba81c43dc6200164008c008900010000000006593044030304460f7f0000000000000800025a02066e375532233700a6,
  0x20101040111000000000000000802cd00000000ba089c31072000550032003203010000000009610f44030304460f7f000000000000000401ff030628281e283c2800a7,
  0x30000020101040111000000000000000802cd040c0000ba089c314720014f006e008c00010000000006610f44030304460f7f0000000000000008025a0306463c28465a4600a8,
  0x420002c908000804000000000000000903c1080a2004bb88ac174f2002ee00b400f106010000000000972727040400460f7f00000000000000c0035a0203504682505a5500a9,
  0x302102000110000000000000000e32c0018001409a0085933260007800320042010100000000090b230a0c0c0546147f000000e30000000101be0c0a38384326264b00aa,
  0x302106000110000000000000000e32c0018801409a008593726000e1007800a1010100000000060b230a0c0c0546147f000000e300000002024b0c0a4c4c433a3a7d00ab,
  0x4100141101812000000000000000812e0018001819a00859382200014001e00290201000000000f1f09090f0f00460a7f000000000000004001be0c0c23233c0f281400ac,
  0x116e30116a488812000000000000000802f0110000819a25b43b8625001e001e002c0901000000000f8462380f0f048c0abf000000510000040001961111372d0f1c193200ad,
  0x144313122488902000000000000000812f0110000819a25b43b8621000a001e002a0901000000000f84ac380f0f04460abf000000000000000101aa110014280f0f1e5a00ae,
  0x104a302128408812000000000000000c02f0110000819a25b43b8625000f001e0031080100000000006920370f0f04460a1f000000000000040001be111141281441142300af,
  0x504a3c6928408012000000000000000c02f0190c00859aa5f43fc6250020003c008e08010000000000692037060404460a1f0000000000000800024b021169502855283700b0,
  0x381803c908008010000000000000000c0bf011000004ba81b437862c001400140040030100000000099c301c04040046147f000000000000010001be020d2d46462d322800b1,
  0x4781803c908048010000000000000000c0bf019080004ba81b437c62c0096009600a5030100000000069c301c04040046147f0000000000000140024b020d465f5f464b4100b2,
  0x2102141100010000000000000000812c0010001019a00859b8220004e003c00380801000000000939090905010346147f000000000000010001eb0c0c2d412328283700b3,
  0x2182141103010000000000000000812c0018001819a00c59b82200085005000800901000000000639090905010346147f000000000000020002780c0c3c502d37374600b4,
  0x40082182151103010000000000000000812c0218805899a00c59bc2200267008c00e602020000034f0039090905010346147f0000000000000300032d0c0c5a7337554b5a00b5,
  0x40002c60500000840000000000000000c82e4040800909a0884394720003a002800dd0301000000000083222207070346147f0000022100000c00032d0b0b645a325f504b00b6,
  0x4280366804102000000000000000a22e0000000c09a00c413b261005500280058010100000000009d252f060204460a7f000000000000000202be110a32142832144600b7,
  0x8004280366804102000000000000000a22e0200800c89a00c413f261011d005000bd010100000000009d252f060204460a7f0000000000000003034b110a503c3250326400b8,
  0x10406081100077202000000000000000882c0b0508080bb50c6510e28017c00780090050100000000009b45050a0a0046147f000000000000002002410505411e1e73644600b9,
  0x44280122004100000000000000000a22c0200a00c9ba00d61372600153006e00e10301000000000002060b02020346147f000000dd00000c00032d0a0a645a464b4b5a00ba,
  0x4820500000140000000000000000c03e4140020109a81843106200005002800320901000000000097662207060346147f000000000000040001ff020b37233228232300bb,
  0x4820500000140000000000000000c03e4140020109a8184310620000a003c00770301000000000097662207060346147f00000000000000800278020b412d50322d3700bc,
  0x4820500000140000000000000000c03e4140820109a8184314620001e005000cf0101000000000097662207060346147f00000000000000c0032d020b5f376e46374b00bd,
  0x201381340447f42000000000000000803f001032080fa80e5b30e21007300500048060100000000095c353205050446147f0000000000000040012d000037285537463700be,
  0x46820500020840000000000000000882e0040000109a08843986200012001e002402010000000000305e2207070346147f000000000000010001eb0b0b1e1e1e1e1e1e00bf,
  0x46820500020840000000000000000882e0040800109a088439c62000550050009502010000000000305e2207070346147f000000000000020002780b0b55691e374b4b00c0,
  0x4000024100000811000000000000000803d000000004ba80b4350620017c0078004e00010000000000770e0303030046147f0000010900000040014b02062d4b5f2d414100c1,
  0x10002200146024000000000000000000a22c4200000409a1a861b326000550028002a010100000000006d0b0605020046147f000000000000000101ff040a19190f2d2d3700c2,
  0x10002280146024000000000000000000a22c4a04800c8ba5ac61b726002ee008c0097010100000000006d0b0605020046147f0000000000000002025a040a41412355555f00c3,
  0x4381c002168408012000000000000000c0af0100800019a01b413c62d0109005a00b8060100000000009c1c1c05050046231f0000000000000200022d0d0d5f826e3c414100c4,
  0x60225002160440002000000000000000942d0100a00019b00b4134e21010e006400b804010000000000271c1c05050023231f0000000000000800022d1010823c416e415f00c5,
  0x420100c902040800000000000000000942d019024804bb80b4170e28001500320051040100000000099e690f04040323147f0000000000000040011e02102a555b2a553c00c6,
  0x4392a2c014e25c01000000000000000082af2310808c99a24f61bf66c031b00c800ac0901000000000090140c02010046147f000000dd00000c0002460d0a6e641e504b5f00c7],
  [0x3a39112122048800000000000000000d0ad011025101bb80b5930e28000a00460057070100000000091a1a1a0b0b0423197f0000000000000400012d07075555553c3c3c00c8,
  0x200003200320076041c00000000001a1a1a0f0f004628ff000000000000010402e10d0d30483030483000c9,
  0x80000011d0082008e010100000000008c17170b0b0046147f0000000000000002022d0d0d3a21213a21be00ca,
  0x139081001680c8810000000000000000c0af031000111ba01b793862d019f0096009f020100000000009d302705050046147f0000000000000200023c0d00415a5541504600cb,
  0x400030100280081000000000000000802c0a20280009a51863187200048003c003a070100000000098e050503030046147f000000000000001001be060623230f5a413200cc,
  0x43400030100390091000000000000000806c0a29a80009a518631c72004ea007800a3060100000000068e050503030046147f0000000000000020024b08063c3c288c5a4b00cd,
  0x104413101cc408080000000000000000812d8b3000100ba64a7b73628008c00960091020100000000039b322005050046147f000000000000000102be000041412d46466400ce,
  0x24400004344020001000000000000000903c9a45220a4bbd8c6170f200288006e00560601000000000011083403030346147f0000000000000010013c0204412355694b4100cf,
  0x104000001d4130020000000000000000986c2b25a84009b5086514e300fa0039800b307020000037f007d05450a0a0046197f000000e9000000200219040841371ec8554b00d0,
  0x382120c07206000000000000000c52c021020082bb2de7b30eb1004e003c003c090100000000099b32160605044614bf000000000000000401be111128281e32503c00d1,
  0x10080382160c07206000000000000000c52c0a14a008abb6de7b34eb101e7008c009e060100000000069b5f160605044614bf0000000000000008024b11113c3c2d4b785a00d2,
  0x28000310106000110000000000000000a22c8030280409a0aa4133b60002700320058070100000000001621260c0c0046147f000000f500000004012d030a373755555f4100d3,
  0x44000004300a00021000000000000000807c1040824a4ba90c41fc720049c00b400af00020000035b0087654403030046197f00000000000000080219080650374164824600d4,
  0x406400380020001000000000000000802c4a25000009a5a8659072000cd003c00b1020100000000007e520503030346147f0000002b002b041002be0506e60a05e60a1400d5,
  0x20004080300200201000000000000000802c0a44904a8bac0c65347a1021c009600af01020000036603993e4403030546197f0000000000000008022d01065f28554b7d5000d6,
  0x60201080342044200000000000000000962d9140340a0fb81e4133e680118005a0056040100000000097c332705050323147f000000d900000040013c0e104b2373375f3700d7,
  0x80120c07442000000000000000802c0a4030080bbc0c6130eb10058003c004205010000000000765f3505050046147f00000000000000040178000032322832503c00d8,
  0x70000080120c07e42000000000000000802c0a44b0088bbc0c6534eb104ea00b400af050100000000007f5f3e05050046147f0000000000000008023c00004b4b374b825a00d9,
  0x2010900220000000000000000000882c4800010029e6584118620015e00460032000100000000008531280b0b0046147f000000000000010001be090928461428282800da,
  0x10402010900220000000000000000000882c4a25890029e758671c620022600500097000100000000008531280b0b0046147f0000000000000020024b0509505a1e78323c00db,
  0x440000102820000000000000000000802c0a00000009a518613b270004100280032050100000000002f510c05050546147f000000000000000401e1040e1e1e3228323200dc,
  0x10440000102820000000000000000000802c0a04800009a518613f270022e006e009e050100000000002f510c05050546147f0000000000000005024b040e3c3c3250646400dd,
  0x384402001022280000000000000000008a2c0a05080409a51b61bb6680032003c009009010000000009901e370902044614bf0000028800000410023c050a5f41235f374100de,
  0x200102000550000000000000000a22c001000140ba24945376200078003c003c070100000000038d61370c020046147f000000000000010001be0a0a23414123412300df,
  0x200182000550000000000000000a26c0010a0150ba2e94537620011d005a00a8000100000000008d61150c020046147f0000000000000104024b0a0a4b692d4b694b00e0,
  0x4100288102004550000000000000000802c048200480ba80c413326000a0005a0074000100000000090f374805020446147f0000000000000040022d020e2d414b2d372d00e1,
  0xc004204106000570000000000000000a22c0a00820409ac086177260089800d200aa06010000000000290b2102020546197f00000000000008000219020a8c504646285500e2,
  0x440000c102200020000000000000000906c18c020204bbd084150e3001f900aa00a30701000000000685053304040546197f000000e900000020021902084628468c504100e3,
  0x201001960040804000000000000000942d000025002bf2ca4310e30006c003c0042040100000000097f123005050523147f0000000000000100017809103250411e3c2d00e4,
  0x60201001960040804000000000000000942d0000a5002bf2ca4314e30015e008c00af040200000357067f123005050523147f0000000000000200022d0910506e5f325a4b00e5,
  0x40080200112000130000000400000000a26c0000808409a008413726005f000b400f3010100000000000661210e020046147f000000eb00000504032d0f0a5f5f555f5f4b00e6,
  0x440000360c20440000000000000000802c0a00000019a5086110630014f003200420101000000000008353505050046147f0000000000000001017804042828283c3c5a00e7,
  0x10440000360e30540000000000000000802c8a25804019a508611463004b0006e00af0701000000000008050505050046147f0000000000000014023c04043c3c3278785a00e8,
  0x312811014b5c801000000000000000080ad011080100aa80b5b376240145003c00b4000100000000069458240a0a004614ff0000000000000200022d00005f693c5a505500e9,
  0x2081110114848091000000000000000081ad031080110ba01b7b3863d02c8008c00a3050100000000009d771605050546147f0000000000000004022d00004155553e5f4900ea,
  0x24400780058080100000000098d651405050446147f0000000000000040022d00002d144b23143700eb,
  0x40004001100000a02000000000000000802c0a0000000fa00c61306a100d20046002a0601000000000048503e0f0f004619000000000000000004014b010123232323232300ec,
  0x40044001100000202000000000000000802c0a2400000fa90c61306a101e0008c009f050100000000005065160808004619000000000000000800022d01016e23465f5f3200ed,
  0x93c20310a00c81200000000000000080af050220081ba01b413b26c003c0028003d0901000000000f5d6c0c0f0f004619fe0000000000000100012d0d0e4155410f1e2d00ee,
  0x4180101107a1a000000000000000812c001800180ba00d593822000eb003c00480201000000000f4809090f0f0046193f0000014200000040012d0c0c37415f253f2d00ef,
  0x408094000380a000000000000000802c000001082be24d411062000d6004600490001000000000f4831310f0f0046193f0000014300000040012d0909374653254b2d00f0,
  0x1040638214a017020000000000000000822c0b30800899a50e7b3762102f3007800ac090100000000039d712f0505054614fe0000002100210020022d000046286469505f00f1,
  0x53f443c216a497002000000000000000c12f0b10801899a74f7bbf66901d4009602600901000000000083201e0606048c28fe000000e700000003031e0000874b370a0aff00f2,
  0x60000100140100030000000000000000852c0318809008a11a593c63806f400be010502010000000000272e2e0f0f052350ff000000000000018003030c0c6473734b555a00f3,
  0x50000000940000020000000000000000842c0304818028e35a433463807bc00d2010505010000000000272e2e0f0f052350ff0000000000000009030309094b5a6455737300f4,
  0x40000204142000030000000000000000a62c0300808408a11a4137678074e00c8010501010000000000272e2e0f0f052350ff000000000000081003030a0a735a55734b6400f5,
  0x481000140a20820000000000000000942c0a05200009b50c6534e2002d0003c003c03010000000009083e3e01010523287f0000000000000004012d0405322d2932403200f6,
  0x481000140a20820000000000000000942c0a05200009b50c6534e2005f000780090070100000000093d3d3d01010523287f0000000000000008022d040546413346544600f7,
  0x10481380154a77a20000000000000000962c2a15b04889bf4c7d37e3207e400c8010e03020000035a007f2d2d01010523287f000000000000000c032d1005645f3d6e866400f8,
  0x4582832c17e020030000000000000000a22d2390803058a91b79ff67c08700208013208010000000000882e2e0f0f050078ff0000000000000c000303020d9a5a6e825a6a00f9,
  0x4400012c928020030000000000000000802d0390813078eb5b7bfc63807c6017c013200010000000000902e2e0f0f050078ff0000002c002c0c00030302099a6e5a5a826a00fa,
  0x43c3cb22508428850000000000000000c8bf0150801918a91b43bc6280032003c010e030100000000001e1e1e0f0f036478ff0000009d009d0003032d0b0d64646464646400fb,
  0x408e0540001240000000010000000882e0840020909ac0c439062100320032003e030100000000005441410e010346141f0000000000000040012d0b0b374146232d2800fc,
  0x408e0540001240000000010000000882e1840020b0dac0c439062100d8005a008e030100000000005441410e010346141f0000000000000080022d0b0b41555f2d413200fd,
  0x600c08e0550001248000000090000000882e1a40824b8dac0c6394633020a00aa00ef030200000378005441410e010346141f00000000000000c0032d0b0b55697841554600fe,
  0x4004000900400300000000020000000802c0840110039ee48411062100190028003e0001000000000003424205050346141f0000000000000100012d090932462d283c2d00ff,
  0x4004080900403308000000020000000802c88401108bdee4c41106a100c3005a008e0001000000000003424205050346141f0000000000000104022d01093c55373c553c0100,
  0x44004081b00c03308000000120000000802c8a449308bdee4c63146b1020800be00ef0002000003550003424205050346141f000000000000000c032d0109466e504678500101,
  0x40200146820a00000000040000000a22c0800000419a4284133261004c0028003e0101000000000006434302010346141f0000000000000004012d0a0a3232283246320102,
  0x440200146824a00000000040000000a22c0a00000c19a42c613326101180046008e0101000000000006434302010346141f0000000000000008022d040a463c324655460103,
  0x104c0280146824a00000000240000000a22c0a04800c99a42c61372710333009600f10102000003770006434302010346141f000000000000000c032d040a5a553c5a6e640104,
  0x201000160040806000000000000000942c000024000bb00a4130e30008800320038070100000000009b5f32050500460f7f000000000000000401ff10101e1e232337230105,
  0x60201000160040806000000000000000942c0000a4000bb00a4134e3001720064009307010000000000995f16050500460f7f0000000000000008027f10103c3c46465a460106,
  0xc300162400446000000000000000822e001000181ba00a593362100af00280038050100000000005f5235050500460f7f0000001c0011004001ff0000291e3c291e260107,
  0x3000c300162400446000000000000000822e001090181ba00a5937631014500320093080100000000005f5235050500460f7f0000001d00110080025a00003d32643d464e0108,
  0x10100000100000000000000000000000000000000000000000024001e003800010000000000321313030300460f7f000000d50097000101ff06061e1414232d2d0109,
  0x120000100000000000000000000000000000000000000000064003c0048080100000000003d3d3d030300460f7f00000000000000200278060619190f372332010a,
  0x44000024101000011000000000000000803c400082010ba80b43d4720011c006400b2020100000000004f4444030300460f7f0000012700000300032d020632644132463c010b,
  0x12000010000000000000000000000000000000000000000007300460048060100000000003d3d3d030300460f7f00000000000000200278060619190f372332010c,
  0x44000024101000011000000000000000803c400082010ba88b435c720013c007800ad030100000000000e1313030300460f7f0000012700000c00032d03065a324146323c010d,
  0x22050a0008400000000000000008a2e004000051ba0084333660001a0032002c03010000000000142c21070203460f7f000000db0000040001ff0b0a32281e1e1e28010e,
  0x26072a007840000000000000000aa2e0040000d1ba00c433366001450078007703010000000000142c21070203460f7f000000db0000080002780b0a463c3232323c010f,
  0x2e072a007840000000000000000aa2e0040800d9ba00c43376600226009600d803010000000000142c21070203460f7f000000db00000c00032d0b0a645a464646500110,
  0x4001820500040040000000000000000882e0040080309a00a431062000280032002c050100000000007c3022070503460f7f0000010f0000001001ff0b0b1e1e1e3228280111,
  0x40018205000402400000000000000009c2e09402c0b0fb40e4314620011800640077050100000000007c3022070503460f7f0000010f000000080278100b283c3c2846460112,
  0x240018247020403400000000000000009c2e1940ac4b8fbc0e43146200254008200d8050100000000007c3022070503460f7f0000010f0000000c032d100b3c5a503c645a0113,
  0x404000c900000000000000000000000803c008000005ba80841706210017001e003601010000000000713e3e040403460f7f000000000000004001c802001e1e551e37280114,
  0x4404000c900000000000000000000000803c008080005ba808417462100c60046009f01010000000000713e3e040403460f7f0000000000000080022d0200324b7d3c553c0115,
  0xc00030c302000800000000000000000803c008000045ba8084173260005f003c0036080100000000092c5d3304020046147f00000000023b004001be020a1e37551e1e280116,
  0xc00030c302000c40000000000000000823c0080a02c5ba808417726001180078009a020100000000062c023304020046147f00000000023b0020022d020a465f4164323c0117,
  0x3b3c11012a00f010000000000000000c0af011001181bb01b49b8e2c004200280028080100000000008c241c0b0b0523147f000000000000010001eb110d232d2819191c0118,
  0x3b3c11012a00f010000000000000000c0af011001181bb01b49b8e2c00ca00500061080100000000008c241c0b0b0523147f00000000000002000278110d3741322323260119,
  0x43b3c11212a00f010000000000000000c0af011081199bb01b49bce2c01e400a000e908020000034e008c241c0b0b0523147f0000000000000300032d110d737d50414144011a,
  0x8000220102000011000000000000000802c410000040ba00a4333620001100320036010100000000092c2121030200460f7f00000000005e004001c80a06343241201e28011b,
  0xc000224102000011000000000000000803c410080050ba80a437762000240050009f010100000000067f1616030200460f7f000000de00000500024b02065264503e3c46011c,
  0x2048e0500000040000000000000000802e0040000309a0884390720002d0028003b050100000000005f5a1b070602460f7f000000570056000101ff0b0b3c28233c283c011d,
  0x402048e0540801040000000000000000802e0844800b8da48c43947a10188007800a103010000000000655a1b070602460f7f0000005700560008025a010b3c3c4650823c011e,
  0x2380102007402000000000000000802c0800100809ae4e5b336a100f00050003805010000000000363636050505460f7f000000000000000101ff000023231e3c3c3c011f,
  0x2380102007e02000000000000000802c0a0010088dae4e7b33eb101d1008c009a08010000000000484848050505460f7f00000000000000800278000037375a5050500120,
  0x10002380102017602000000000000000802c0a0090888dae4e7f37eb1051900c800fc05010000000000363636050505460f7f0000000000000003032d0000415f6464a0960121,
  0x1020100000001000000000000000802c1000000208a90ac31062000370032003507010000000000320e0e030301460f7f000000ed0000001001ff04061e1e285a2d1f0122,
  0x44001020100000801000000000000000803c104080020ba90ac3546200078005000a002010000000000970303030301460f7f0000000000000080027802063232a02d5a3d0123,
  0x3009020100000001000000000000000802d100091020aa90ac314620000c00500053050100000000001919190a0a01460fff0000000000000002022d07061e1e282d5a010124,
  0x4030012a007800000000000000000802c0000000819a24a433363100a3003c0030090100000000009b2b2b05010346147f000000000000000101be000017331c1733400125,
  0x1004030012a007a00000000000000000802c0a00000839b64e6733e3101950064007e01010000000000712b2b05010346147f0000000000000002027800002b47302b47540126,
  0x100c030012a007a00000000000000000822c0a008008b9b64e6737e310348009600dd01010000000000712b2b05010346147f0000000000000003032d0000495b443f5b680127,
  0x4081300807200000000000000000822c8a0000088da40c65306a103600064002f020100000000097d3e2f08080246143f000000f10000000101b401011e14191e3c480128,
  0x30004081300807220000000000000000822c8a04a0088da40c65346a109ea00e600a6050100000000067d3e2f08080246143f000000dd0000000202c801013c28323c78900129,
  0x4200362000902000000000000000a22c0000000409a008413b261001400140026010100000000009d252f0f0f04460abf000000000000000101961100281414281432012a,
  0x104001101003bf000000000000000000c02c0a1d080009b5087d10e2003ca0064004b070100000000099f2a050a0a0046147f000000f20000001001ff05055a2d1e872d1e012b],
  [0x430216a400802000000000000000812f0110201019a00a5bb3629006e003c003409010000000000936038060504460fbf000000000000004001ff00002323322d2d32012c,
  0x5000430216a400802000000000000000812f0110a01019a00a5bb76290146006e008c06010000000000936038060504460fbf0000000000000041023c000037375a414146012d,
  0x322939130a0cf210000000000000000d42d810035880fbc0f4130e28006e00320085060200000379009e643308080323197f0000010900000014022d07104141324b4b32012e,
  0x40600090302745024000000000000000906e0944a41a89b7ce4335e200073003c0085040200000367067d163406050446147f0000011600000014022d1108373732555532012f,
  0x441300140b20820000000000000000802c0a01100009ad0861306300258002800420701000000000086450501010523237f000000ee0000001001b4050828281e6446320130,
  0x10441300140b20820000000000000000802c0a05100009ad08613063004b0005a00970701000000000086450501010523237f000000ee00000020025a05083232288c5a3c0131,
  0x104c1380156b37a20000000000000000926c2a15f04889af4c7f37e320e1000d200ef0702000003580086450501010523237f000000ee00000030032d05083c3c32b46e460132,
  0x110c0d110808f210000000000000000802f890000088da41f41386ad0070003c0038010100000000008c4a4a08080046147f000000000000004001b40d0137283c37281e0133,
  0x4110c0d110808f210000000000000000802f890080098da41f413c6ad013b00820090000200000356008c4a4a08080046147f0000000000000080025a0d014b3c504b3c3c0134,
  0x100140100810000000000000000852c001800100ba04859382300098003c003b030100000000093a1f0905050546147f000000000000004001780c0c284141282d280135,
  0x40000100140100810000000000000000852c001880102ba048593c2300192009600a6020200000368063a1f0905050546147f0000000000000080022d0c0c3c69693c4b460136,
  0x4100141501812000000000000000812e0018001819a0085938220002a0028008e020100000000001f393906060046147f000002220000004002c80c0c4b555f28323c0137,
  0x4100141501812000000000000000812e0018001819a0085938220002a0028008e020100000000000a3a3a06060046147f000002220000004002c80c0c554b5f32283c0138,
  0x400c3a4108005011000000000000000c03c411002180ba80e5b7862000b100460097070100000000009e4423080301460f00000000d50000004002960606552f554b49410139,
  0x40043a4108005003000000000000000c03c411002180ba80e5b7862000b1003c0097060100000000009e6e0c080302460ffe000000d500000040029606065549554b2f41013a,
  0x820500000042000000000000000c82e8140000109a08a43307200014001e008c0301000000000066261e07060346147f000000f5000002000296030b5064412d3c32013b,
  0x200730100007440000000000000000802d4000080009a0aa433172000670028003c03010000000000523c400b0b0246147f0000009e009b000101e10303352b28352b46013c,
  0x200730100017440000000000000000802d4200880009a0aa6335720032000aa00a306010000000000523c400b0b0246147f0000009e009b0002024b0303534937534964013d,
  0x120010a000904000000000000000b62c000020040bb0084133a6000d00050003d000100000000090318180c0c0523147f000000e20000000401e1100a144141145a2d013e,
  0x800120010a000904000000000000000b62c8200a0040bb4086137a70037800b400a101020000037d030318180c0c0523147f000000e200000008023c100a285f5f287846013f,
  0x20012a000100000000000000000a22c0200000419a4086133270051400c80050010100000000092e0c290c050246287f0000000000000001017d0a0a23463c2346820140,
  0x800020012a010120000000000000000a22c0200800419a40861372700f8c05aa00af010100000000062e0c290c050246287f0000000000000002023c0a0a2d5a3c2d5aaa0141,
  0x402000900020020000000000000000882c0a00010039e748611062000f00046003d0201000000000014560c05050046147f000000000000010001ff04092d4123283c3c0142,
  0x10402000900020020000000000000000886c0a05890039e7486314630089800be00a10002000003880053742805050046147f0000000000000104029604094b69284664460143,
  0x10402000940a20000000000000000000882c0a24890029e6c863146200324003200a5050100000000064b464905050046147f000000f900000020025a09094655148c55460144,
  0x3b0810314a00811200000000000000080af011020100bb01b4138e2c0132004600420401000000000052142f05050446147f000000000000040001ff0d0d50463c23193c0145,
  0x43b081c314a00f11200000000000000080af0310a0198bb01f413ce2c02cb005a00a50601000000000052142f05050446147f0000000000000800023c0d0d6e5a50412d500146,
  0x10b0c3c112a407a0200000000000000081ad090000080ba40f41b06290032006e007e050100000000067e4d14080504460f7f000000000000010002ff00003c3c3c3c3c3c0147,
  0x20100820011000000000000000802c0a00000009a508631462000960046003a050100000000097d473403030346147f000000ed0000000401ff04042d2d0a2d642d0148,
  0x24080024910820811000000400000000803c0a80000049a50863546200099006e0077030100000000061a1a1a03030346147f000000000000004402780f043232463246320149,
  0x64080024950823811000000400000000803c2a84804049af486354622033400c800ea030100000000001a1a1a03030346147f0000000000000084032d0f04505064506450014a,
  0x18e1500011240000000000000000982e8040200909a10c4310720020100280043030100000000000b080808070323147f000001200000010001be0b0b285523285532014b,
  0x100018e1500851240000000000000000982e8040a40989a10c43147200306008200a6030100000000000b080808070323147f0000012000000104023c100b3c73373c7346014c,
  0x408000e930000800000000000000000c02d018000005ba80843f1620000c0028003e010100000000000d1e1e0e040146147f000000000000040001ff02004b28323c282d014d,
  0x40a000e970000800000000400000000c02d038080005baa4863f563200ce006e00ac01020000037a000d1e1e0e040146147f0000000000000800022d020f6946505a464b014e,
  0x200403a0342407200000000000000000802c9840340a8bae4e5b33e310193008200a00801000000000089111105050146147f000000d900000008025a00003c3c5a3c7349014f,
  0x202004203c4000000000000000000000902cf24020400ba0e86130f20020d010e00a004010000000000973d3d0e050246147f0000012700000104025a03033c64413c64490150,
  0x53d1401010a0a803000000000000000080af0b258e1008a51b65bf22c0690006400a1020100000000001a1a1a0a0a044619ff00000051005a0200022d0d05555f4641375a0151,
  0x53d240109082a803000000000000000080af0b258f1028a75b679c62c0604007800a1000100000000001a1a1a0a0a044619ff00000050005a0008022d0d05413746555f5a0152,
  0x200106020100000000000000000a22c0200000409a508613326000130028003a070100000000095d6b0c0c0c0046147f000000000000000101be040a292e3c2b30320153,
  0x1000020010e020100000000000000000a22c0a04800409a508613726000ec005a00a4010100000000065d6b0c0c0c0046147f0000000000000002024b040a474c3c494e6e0154,
  0x41200302a00000000000000000000a22c1840200e09ac8c4133a600073003c003e000100000000095b4b34090202460f7f000000000000000401cd0a0a23322341502b0155,
  0x8041200302a00000000000000000000be2c1840a00e09acac4137a600148006e00a4000100000000065b4b34090202460f7f0000000000000008029b100a375a3755783f0156,
  0x3d280001080a8090000000000000000c0af0b21081008a51b67b962c00d70032003c0501000000000f1a1a1a0a0a004614ff0000010d0000040001ff0d044628373728280157,
  0x3d280001080a8090000000000000000c0af0b25881008a51b67bd62c0438009600af0401000000000f1a1a1a0a0a004614ff0000010d00000800025a0d0478464b69463c0158,
  0x400c30580020040000000000000000802e4841000109a588471062000ee0064004706010000000000721515090901461e1f0000012800000400012d0b05573d174d29420159,
  0x400c30580030040000000000000000802e4a45800109a5a86714620025c009600ad03010000000000721515090901461e1f0000012800000800022d0b056b512b615156015a,
  0x400200300220001000000000000000802c1841000209ad0c4510620007d0046004707010000000000210404090901461e1f0000000000000004012d060532284b325f2d015b,
  0x18400200344a30201000000000000000806c1a45804209ad0c651462002aa009600ad07010000000000210404090901461e1f0000000000000008022d060550462d647d4b015c,
  0x200152000000000000000000000a22c0000000409a008413b260004a003c0028050100000000095b0c210e020146147f000000000000004001ff0a0a370a50140f14015d,
  0x400002001d6008020000000000000000a22c2300804409a00841bf2600654026c00bd0901000000000038ac3f0e020146147f0000000000000800023c0a0a7d64514f3c5f015e,
  0x4000304102400000000000000000000802c011000050ba34a5b336610008001e0093070400000334003b3b3b0b060046197f000000f300f30001022d0000464646464646015f,
  0xf2a3c13c644f20000000000000000080ae091010180bae4e5b3362100dc0064009a03010000000009a8101005050346147f000000000000040002c80000783c28465a3c0160,
  0x3a19111302048400000000000000000d0ad011025100bb00b5930e280017003c003b0401000000000982770f0b0b0423197f000000f70000000401e10707213f2d234b2c0161,
  0x23a19111302048400000000000000000d0ad4110b5180bb00b5934e28007d006e009f0402000003590682770f0b0b0423197f000000f700000008022d07073f53414173400162,
  0x3a2901010208000000000000000000090ad410025180bb00b4133e2800960050003b04010000000000771a1a0b0b0423197f000000f70000040001be07075a1e195a28140163,
  0x3a2909018208700000000000000000090ad4b00a5180bb40f6137e28013200a0009f04010000000000772e2e0b0b0423197f000000f700000410025a0707823c198246280164,
  0x14080824510000040000000000000000882e02c0804149a80863d463003e800c800a1030100000000038b5e2207010546197f000000000000000202c8020b5748335344630165,
  0x47b0c1023aa488810000000000000000c0af0110001119b01b41b8e2c000a003c009f010100000000001a1a1a0b0b0446197f000000e000000500022d0d0d5a5f4150324b0166,
  0x6020130134a848100000000000000000942d1954b1521bbf4a5937e6801d6007800a3080200000364039a692e05050323197f0000000000000008021e10103c4b4b3c82410167,
  0x80000008c003c0034010100000000008c17170f0f0046147f0000000000000001017d0d0d30171730175f0168,
  0x1200102010000000000000000000802c0400000009a00a41bb26000a80046003c070100000000098d73270a060046147f000002890000000101be0e0e3232323232320169,
  0x40001200102010034000000000000000902c0620a80009b00a61bfa600a05009600a8070200000381038d73270a060046147f0000000000000002024b0e0e505050505050016a,
  0x200146000014000000000000000a22c0e00000019a4086133260018b0050003a010100000000000c732f05020346147f000000000000000101ff0a0e323719322846016b,
  0x200146000014000000000000000a22c0e00000019a4086133270036c006e0090010100000000000c732f05020346147f000000000000000202780a0e464b2d463c5a016c,
  0x10000200146010034000000000000000a22c0e00800019a408613727005e2008c00ef010100000000000c732f05020346147f0000000000000003032d0a0e5a5f415a506e016d,
  0x200102200000000000000000000a22c0000000409a0084133260020d002800450101000000000f9b4b4b02020146147f000000590058001001ff0a0a374a20554023016e,
  0x200200186000104000000000000000a22c4000800409a4084137260010e00aa00aa0101000000000029212102020146147f000000e200000014023c0a0a4b5e34696837016f,
  0x200186000110000000000000000a22c4100800409a00b41b726000e200b400aa090100000000005d212102020146147f000000e300000200023c0a0a4b72346954370170,
  0x1040020010e020100000000000000000a22c0b05800409a50865b726800ea006400aa070100000000030545210c020546281f000000e3000000110219050a412d37825a640171,
  0x8000200102000100000000000000000a22c0100000409a00841b32600057003c0074090100000000065d21210c0c044614bf00000000005d004002e10a0a412861371e2b0172,
  0x80000138000000000000400000000802c0800100009ae4c413063201a5003c003c010100000000097d45450e0e0523287f000000fa00000004012d0f0f1e28323c4b2d0173,
  0x80000138200000000000400000000802c0800100009ae4c41306320451006e0093080100000000068e45450e0e0523287f000000fa00000020022d0f0f323c32645f410174,
  0x4408000497c000000000000400000000802c2a84904049ae4c617463204020096010e01020000038a009916160e0e0523287f000000fa0000000c032d020f506e6450875f0175,
  0x8200020000000000000000000000000000000000000000003b8003c003c01010000000009871d1d0a0a052328ff000000e90000001001030d083c231e5037280176,
  0x340800010a385030000000000000000806e0b21080008ad9f613c62407e90078009301010000000006871d1d0a0a052328ff000000e90000002002030d08503732644b3c0177,
  0x5340800010a395030000000000000000806e0b21880008ad9f613c624157c00a0010e01020000038300871d1d0a0a052328ff000000e90000003003030d085a5f468287500178,
  0x104001c0100ab7020000000000000000802c0b15881888a50c7d9462008fc00aa010505010000000000051d1d0f0f052350ff000000000000003003030505643232c864500179,
  0x10000180102895030000000000000000806c0f13881888a40c79b726006d600b4010501010000000000731d1d0f0f052350ff0000000000000c0003030e0ec86432643250017a,
  0x10400180100b95020000000000000000806c0b11981888ad0c79b4620080200be010507010000000000871d1d0f0f052350ff000000000000042003030808964b32964b50017b,
  0x4709c30511a408002000000400000000a22f0390901149a91b7bfd63e0190008c010e00020000036b001a1a1a0f0f055a78fe0000000000000c0003030d0f826e6e5a5050017c,
  0x470ac30411a408000000000400000000a22f0390901149a91b7bfd63e025800c8010e01020000036a001a1a1a0f0f055a7800000000000000030003030d0f6e826e505a50017d,
  0x8000300106010830000000000000000a22c0b10800408a40c79b72780dc001c2012e010200000384000202020f0f050078ff000000000000030003030a0a8c965a5a6464017e,
  0x10400100150033820000000000000000802c2b559048a8af4c7f946b2251c015e012e000200000385004646460f0f050078ff000000000000000c030304045a645a8c9664017f,
  0x40803041f6020820000000c00000000a22c2bf49069b8af4c7b376b2081102bc0132030200000386004c4c4c0f0f050078ff0000000000000108032d020f5a965f5a96690180,
  0x1d1c34010a68f830000000000000000c0ff0110801908a91b59bc62c000b001e010e020100000000002020200f0f056478ff0000005b005b000303030d086464646464640181,
  0x73f283c138a08f21000000000000000090ef891080598cbc1f5bbde2c026000aa010e000400000328002e2e2e0f0f050078ff000000000000014403030d0d3296963296320182,
  0x400820540820040000000010000000882e0040000109a0184398621006600280040030100000000004b414107010346141f0000000000000004012d0b0b372d1f4044370183,
  0x400820540820040000000010000000882e0040000109a018439862103ca006e008e030100000000004b414107010346141f0000000000000014022d0b0b41372455594b0184,
  0x10480820540830060000000090000000882e0a45800109a518639c6310c1c00dc00ec030100000000004b414107010346141f0000000000000018032d040b554b38696d5f0185,
  0x444081940003e02000000020000000803e004013082dfa4c4110ea1003e0032003e0501000000000059424208050346141f0000000000000040012d09092c3a3d2c3a2c0186,
  0x44408194000360a000000020000000803e88401308adfe4c4110ea100dc005a008e0501000000000059424208050346141f0000000000000140022d0109344e51344e400187,
  0x4044408194000360a000000120000000803e8a449308adfe4c6314eb90226007800f00501000000000059424208050346141f0000000000000144032d010947686c47684c0188,
  0x4400200102000012000000040000000a22e0000008c19ac0c413326100340028003f0101000000000080434305020346141f0000000000000100012d0a0a383d283533350189,
  0x4400200102000012000000040000000a22e0000108c19ac0c413326100e60050008e0101000000000080434305020346141f0000000000000200022d0a0a4c5132444240018a,
  0x6c400200302200012000000240000000a26e0a40908c59ac0c6137271034d00aa00ef0101000000000080434305020346141f0000000000000300032d080a656f3c585654018b,
  0x4040004900000800000000000000000803c008000005ba80841706210014001e003105010000000000783333040403460f7f000000000000004001ff02001e1e3c1e3728018c,
  0x4040004900000800000000000000000803c008000005ba8084170621009b003c007705010000000000781616040403460f7f000000000000008002780200282850324b37018d,
  0x4404000c900000800000000000000000803c008080005ba808417462100f9007800da05010000000000781616040403460f7f000000000000000c032d02003c3264467855018e,
  0x400100146c00006000000000000000802e005000101ba00a5933e2100c800320032050100000000008d6d56050200460f7f000000000000000101ff000028231f282d3b018f],
  [0x18400380146c00006000000000000000a22e0250801c1ba00a5937e21013b00640090050100000000008d6d56050200460f7f0000000000000008027f0a003c37473c554f0190,
  0x4000010000080100000000000000000000000000000000000000000016001e002700010000000000323d3d030303460f7f000001150000001001ff06062919192919250191,
  0x60040002320000801000000000000000802c5040800219a80cc134e2000ff0064008600010000000000654444030303460f7f0000011500000008022d060633374133554d0192,
  0x4100140100010000000000000000852c001800100ba0085938230005f00320035010100000000003e164f05050346147f000000000000000401eb0c0c22282d22412d0193,
  0x4100140100010000000000000000852c001800100ba00859382300131005a007f010100000000003e164f05050364147f000000000000000802780c0c313c3c31553c0194,
  0x60004100140900010000000000000000852c001880100ba008593c23001a4008c00eb010100000000003e164f05050346147f000000000000000c032d0c0c4f5f464f78500195,
  0x820500000842000000000000000c82e0140000109a08a4330720000c001400380301000000000066261e0f0f0346147f000000f50000010001ff030b463237231e280196,
  0x40000820500000042000000000000000c82e8140800109a08a43347200091005a00e80301000000000065261e07060346147f000000f500000300034b030b697d5a41463c0197,
  0x441100158823820000000000000000802c0a4520080ba7487d33630013b005a0046010100000000007d6868010101461e1f0000000000000004012d05051e1e3a287d430198,
  0x504c1190158823820000000000000000822c2a45a0088ba74c7d37630040100a000ad010100000000007d6868010101461e1f0000000000000008022d050532413a3ca5610199,
  0x400100140320020000000000000000806c0a05000009b7487d33e30023a00320046070100000000002b0505010101461e1f0000000000000010012d0805582a1e762a1e019a,
  0x10480100140338020000000000000000806c0a05800009b7487d37e3005d7008200ad070100000000002b0505010101461e1f0000000000000020022d08058a2f1ea8343c019b,
  0x101000001000000000000000000000000000000000001020000220014002d030300000000008e3d3d030300460f7f0000000000000400017806062d1d242d1d28019c,
  0x3840820501000851000000000000000802f410080010ba00b43b472000410032009403030000032b008e6b6b030300460ffe000000de00000800022d0b06694f24553b3c019d,
  0x4800024101000011000000000000000803d410082010ba80b43f472000e9005a0094020300000000006e4444030300460f00000000de00000104022d0206325e42325e46019e,
  0x4000410000000100000000000000000000000000000000000000000037001e003102010000000000377676030303460f1f0000005e00000040017802062a1e462a1e1e019f,
  0x44040004100000011000000000000000803c500082880ba88841747200181007800a6020100000000007f2e2e030303460ffe000000f500000410022d020666502866504601a0,
  0x40004100141501c46000000000000000803e0018001819a008593822000270028008e080100000000000a3532060500640a7f000000000000004002c80c0c5a2d5f462d3c01a1,
  0x4280146004000000000000000000a22c0000000419a40c41332e00127004600420501000000000029212105020046147f000000000000004001be0a0a1e3c5523413701a2,
  0x8004280146004200000000000000000a22c0000a00499b40c4137af0014f006e00ad0501000000000029212105020046147f0000000000000080024b0a0a32557337695501a3,
  0x4820500000040000000000000000c82e0040000109a00843906200021002800370901000000000022222207060046147f000000ef0000010001be0b0b353e232d232d01a4,
  0x40004820500000040000000000000000c82e0040800109a0084394620005d0032009e060200000337007a7a7a07060046147f000000ef00000200024b0b0b4e5755463c4601a5,
  0x210102020000000000000000000822c4000000409a0084133260003f001e0041060200000338099f723c0b020046147f000000000000000101be0a0a3e392230304c01a6,
  0x10000210102030000000000000000000a22c4a04800409a5a86137260012b005a00a6060200000339069f723c0b020046147f0000000000000002024b040a525c2744536f01a7,
  0x40201381340447f42000000000000000803f0010b2080fa80e5b34e2100cb007800a9060100000000005c356505050464147f0000000000000080022d0000423c7342644b01a8,
  0x7909114382008000000000000000000802d01302f100ba00b5930628000c00280046060100000000098a546a0b0b02461e7f0000000000000001017d02072c3c4622325a01a9,
  0x7909114382008000000000000000000802d01b0af100ba00b59346280096007800ae060100000000068a546a0b0b02461e7f0000000000000002023c0207365a502c509601aa,
  0x463c216040fb02000000000000000802e0010001809a00a4b316210037002800460501000000000907673208050000147f000000000000004001be0000382c552c423701ab,
  0x400463c216040fb02000000000000000802e001080588da00a5b37621014d007800a8050200000389060767380805008c147f0000000000000080023c0000603669544c4101ac,
  0x43a39112122048800000000000000000d0ad0110a5111bb80b5934e28002c005a00ad060100000000001a1a1a0b0b0423197f0000000000000500022d07076969693c3c3c01ad,
  0x420100c902840800000000000000000942d0190a4804bb80b4174e280111005a00b10401000000000099690f04040323147f0000000000000008021e0210346947347d6401ae,
  0x200300360440006000000000000000803d010030001bb80a5930e2100270032003e070100000000003314070505044614bf000000000000004001be0000252a552a373101af,
  0x30200300360440006000000000000000803d0300b0001bb80a5934e3101b60064009e0701000000000080142f0505044614bf0000000000000080024b00003b407040524701b0,
  0x3b0c1023aa488810000000000000000c0af0110001019b01b41b8e2c000600140039020100000000001a1a1a0f0f0446197f000000e00000010001780d0d32412d321e2d01b1,
  0x24200000140040000000000000000000942c000038000bb2ca4130f3000c00028004206010000000000336a0105050046147f000000000000004001e1100329294a2f3f3f01b2,
  0x24200000140040000000000000000000942c8000b8000bb2ca4134f30017c006400a806010000000000336a0105050046147f0000000000000002023c10033d4754435d6701b3,
  0x3d2800010028001000000000000000080ef0b21201008a51b63b862c025d0032003c0301000000000086551a0a0a004614ff000000e90000001001ff0d0856181756183901b4,
  0x3d2800010829003000000000000000080ef0b21a81008a51b63bc62c074e008200af0301000000000086551a0a0a004614ff000000e900000410025a0d08744f2174594301b5,
  0x10406001100070a02000000000000000882c090108000ba50c451062800960032003a0501000000000f9b45050f0f0046147f000000000000001001ff05052d0a0a5f503201b6,
  0x3b3c1c110200881200000000000000080af411000180bb01f5bb8e2c0082003c003e0901000000000f656f2b0f0f0046197f00000000000004000191110d5a463c2d191401b7,
  0x14434212a480802000000000000000802f0110000819a24b43b866100f4003c006e0901000000000084201e0f0f048c28fe00000000006e000101820000410f1e05056401b8,
  0x400000d920000800000000000000000803c008000005bb8084170e2100130032009004010000000000914d3304040323147f0000011500000004021e02002a5c5b2d414c01b9,
  0x3229310102040800000000000000000942d410085800bb40b4134e280438006400aa06010000000000972e2e0b0b00461e7f0000000000000410026410076c5c236c5c3201ba,
  0x480000150020020000000400000000802c0a04100009af48613063200cd0046003c010100000000001808080e010546287f0000000000000004012d040f2d282a2d463a01bb,
  0x40480000150020028000000400000000802c0a04100009af4861306320230008c0090010100000000001808080e010546287f0000000000000008022d040f373252415a4401bc,
  0x50480000154020028000000400000000822caa44904a09af4c613463203b600be010e010200000369001808080e010546287f000000000000000c032d040f5550665f826c01bd,
  0x1030238012ac07c42000000000000000822c0a00000809a74f7b33621041a003c004e04010000000006522f350f0f0546281f000000ea00ea00010132000055280528558701be,
  0x400040c1148305208000000000000000802c8a4030088da40c61306b100ca004600390101000000000f9e27500f0f0346191f0000000000000004014b010128233c28462801bf,
  0x400042c1158305208000000000000000906c8a44b0088da40f61346b9021c007800b801020000035e009a275008050346191f0000000000000104022d080146735a466e4601c0,
  0x10400200140820000000000000000000802c0a00000009a508611063001ef00500042050100000000009f2d2d050505461e7f0000000000000010018c04042a26204e484401c1,
  0x10400200140820020000000000000000802c0a04800009a50861146300bb800c800b8050100000000009f2d2d050505461e7f0000000000000020023c040448442f76706c01c2,
  0x344000001000000000000000902cd040200a0bbc8e4130f200078005000420601000000000033610409030546147f000000f50000001001780603371e415a322801c3,
  0x30000000344000001000000000000000942cda40a04a0bbc8e6134f300267008200af0601000000000033610409030546147f000000f500000020022d10034b3c5f6e5a4601c4,
  0x2050c130204570c000000000000000902c9a0024088fb4ae6130fa100e60046003c010100000000008f576b080800640a7f0000011900000004018c0103283d32283d3001c5,
  0x202050c130204570c000000000000000902c9a44a4088fb4ae6134fa101bc008200ac010100000000008f576b08080046147f0000011900000008024b0103415655416a5301c6,
  0x24000c20780000041000000000000000882e4040a0090ba0884314620010e008c009f030100000000001a1a1a07070546197f000000000000000802c80b0b485a2e48644a01c7,
  0x4000204106000110000000000000000aa3c0100200409a00841b3260004600280042010100000000092972210c0c0146147f000000000000004001be0a0a3d314238313101c8,
  0x4000204106000110000000000000000a23c0100a00409a00841b726000f0007800a1010100000000062972210c0c0146147f0000000000000080024b0a0a56455b4c454501c9,
  0x4204102000110000000000000000a22c0a00020409a8086133260028a006400450101000000000f290b210f0f0546197f00000000000004000119020a783c3232142d01ca,
  0xa21542004040000000000000000802e0440000109a00a43bb26001f900640043080100000000002b757507010546147f000000f60000000401780e0b3c3e28323e3c01cb,
  0x10080aa1542014040000000000000000802e0e40800989a40e63bf260054b00dc00ad08020000035f002b757507010546147f000000f600000104023c0e0b555c3c4b5c5a01cc,
  0x60201080342044200000000000000000962d9140b40a8fb81e4137e680154006e00b3040100000000007c2e2e05050323147f000000d900000044022d0e10552d7d41784601cd,
  0x2100100101388030000000000000000816c0138881008a018593c6200708007800f10701000000000094052a0a0a004614ff000000e900000300031e080c5a823c73464601ce,
  0x100003803ce017000000000000000000822d2b6088488ba74e7b37621057800aa00b4090100000000000d0c1401010046147f0000011700000003021e00005f50325f556e01cf,
  0x104c11801568378a0000000000000000826caa45f0488ba74c7d376300b0c00f000f10701000000000078741f05010546147f000000000000000c031e0504373728828c7301d0,
  0x10040930780010040000000000000000882ecb40a0098bac9c6314620050600c800bb0101000000000090662207070046147f0000000000000020021e0b0b326e327d646401d1,
  0x1000418014110721a000000000000000812c0a1880188fb44d793ca20056a00b400f302010000000000484e4e08080046193f000001420000000c031e0c0c555f5f437b4b01d2,
  0x1000408094000320a000000000000000802c0a008108aff64d6b14e2002a800a000f30001000000000048313108080046193f0000014300000300031e09095f7d53435f4b01d3,
  0x4504a3ce928408012000000000000000c02f0190800859aa5f43fc625017c009600f508010000000000692037060404460a1f0000000000000600031e02117378505f325501d4,
  0x44000024100000811000000000000000803d010080004ba80bc354620020300be00b403010000000000776e0303030046147f0000010900000008021e020638745f564c5601d5,
  0x40004822760400042000000000000000882e1040800119a80a433463100ff006400b80301000000000022666605050023231f0000000000000020022d0b0b413c5f826e4101d6,
  0x40004202166400012000000000000000802c0402800019a00a41376710103005000b80101000000000073515105050023231f0000000000000200022d0e0e5f82416e3c4101d7,
  0x2440000c344020001000000000000000903c9a45a24a4bbd8c6174f2001a900c800b3060100000000005a083403030346147f0000000000000020021e02044b2d5f7d5f4b01d8,
  0x10440000302830020000000000000000802c0a04800009a518613f2700b5e00fa00ef050100000000002f510c05050546147f000000000000000c0332040e3c465050826e01d9,
  0x312811014b5c881000000000000000090ad011084100aa80b5b376240154005a00f10001000000000094585b0a0a004614ff0000000000000300031e00004b875a46505501da,
  0x63b3c1d032800f218000000000000000c0af9b54811a9fbc1f69bcead020800a000e908020000037b009a50500b0b05231400000000000000000c032d010d734150417d4401db,
  0x134001101003bf020000000000000000c06c0a1d880009b5087d14e200d48008c00b8070100000000009f2a050a0a0046147f000000f200000810023c0805964b2891373c01dc,
  0x43a2909018208700000000000000000090ad4b00a5188bb40f6137e28042a00dc00ec04010000000000772e2e0b0b0423197f000000f700000810032d070787412d87642d01dd,
  0x43209310102014010000000000000000802d0512a50809b00b59bfa60010a008200a8080100000000008251510a06004614fe0000000000000080024b070e46506e46504601de,
  0x7209110101040810000000000000000902d011801100aa01a59386200003001e009a00060000032f001a1a1a0b0b004614ff0000000000000140022d070c4d5f5b4d323201df,
  0x43d3c32334804f010000000000000000c0bf0110821908a11b5bbc62c0003001e0105020100000000001a1a1a0f0f058c50ff000000000000042003030d0d824b5f824b4b01e0,
  0x43d3c30134800f010000000000000000c0bf0110821908a11b59bf62c0003001e0105090100000000001a1a1a0f0f058c50ff000000000000050403030d0d69695069695001e1,
  0x43d3c30134840f810000000000000000c0bf0110aa1908b35b59bce2c0003001e0105010100000000001a1a1a0f0f058c50ff000000000000010803030d0d467d73467d4b01e2,
  0x104801001703a002000000040000000080ec2b14900038af4c79b76b21aae021c0132080100000000008c2e2e0f0f050078ff000000000000030003030f0864965a78786401e3,
  0x180803801340a000000000040000000082ac2b14900898af4c79b76f20d2001a40132060100000000008c2e2e0f0f050078ff000000000000030003030f0a78966464785a01e4,
  0x10400000910220821000000000000000986c0a04a90029f6486314e3010cc00aa010e050100000000003112120f0f05640a7f0000000000000300030308096a824d6a5a5b01e5,
  0x100001c030a8b7020000000000000000882c0b15a008882c0c7da462010680172012e080100000000007070700f0f050078ff000000000000000c030300006e50646ea06e01e6,
  0x50811101760a0020000000400000000902d2394b15158a80b79b463a1d4c01c2013204020000032e008c2e2e0f0f050078ff000000000000000303030f0778645a78649601e7,
  0x391c00010a08801000000000000000080af0110801109a01b43bd62c03580096010e020100000000001a1a1a0f0f056478fe0000000000000c0003030d0d824b5578467801e8,
  0x8004202302400912000000000000000e23e0100000c08a00841b3260001f002800d8010100000000005d5d5d0602054628ff0000000000000001031e0a0a50505050505001e9,
  0x8804202302400912000000000000000e23e0100800d08a01b41bf268000e001e010e010100000000005d5d5d060205460aff000000000000000303030a0a64646464646401ea,
  0x202291c0302440000000000000000000942d9950b5188abc8f5937e2801f90096010e040100000000007b7b7b0f0f050078ff0000000000000240030310105a877d5a5a4601eb,
  0x40040820508420042000000000000000c82e0140800108a009439462000150014010e03020000032d001e1e1e0f0f036478ff0000009d009d0003032d0b0b64646464646401ec,
  0x4d58832497e6a8030000000400000000b6ef9bd4b191b8afdf7bbf67f0c8001400144081200000000007979790f0f050078ff00000000000000030303000078787878787801ed,
  0x4180c10190840b910000000000000000c1be01108519a8e24f5b9ce2500280028010e02010000000000a2a2a20f0f056478ff00000000000000030303090d64646464646401ee,
  0x4200c207c4000040000000010000000882e0040000109b8184398e290051003c003e030100000000007e414107050346141f0000000000000040012d0b0b372d3f372d2d01ef,
  0x4200c207c4000040000000010000000882e0040000109b8184398e2900a000500091030100000000007e414107050346141f0000000000000080022d0b0b4b3c534b3c3c01f0,
  0x4280c207d4000040000000090000000882e2040804109b818439ce290276014a00ee030100000000007e414107050346141f00000000000000c0032d0b0b5f4b715f4b4b01f1,
  0x10044000948800002000000020000000812e0020010039e6484310e3100630032003e000100000000002f424205050346141f0000000000000001012d09092d2d2d2d3f4101f2,
  0x10044080948803202000000020000000812e8a240108bde64c4310e31022b00640092000100000000002f424205050346141f0000000000000008022d0109374637375d5a01f3],
  [0x10044080948813222000000120000000812e8a24810cbde64c6714eb105dc00a000ee0001000000000078424205050346141f000000000000000c032d0109416441417b6e01f4,
  0x4200146000002000000040000000a22e1040000e09a8084133a61003b0032003e010100000000004b434305050346141f0000000000000100012d0a0a2d3f2d2d373701f5,
  0x4200146000002000000040000000a22e1040000e09a8084133a6100f500500091010100000000004b434305050346141f0000000000000200022d0a0a3c533c3c4b4b01f6,
  0x8004200346810002000000240000000a22e3040c00e09a8084137a6103b2009600ee010100000000004b434305050346141f0000000000000300032d0a0a466c4655645f01f7,
  0x4004610014c400646000000000000000802e0040000809a00a493062100740032003305010000000000943332050500460f7f000000000000000401ff000027232a27372d01f8,
  0x5004618034c407656000000000000000802f0150800889a04a593c621010e006e00930501000000000094332305050046147f000000000000000802ff0000453c4d45553c01f9,
  0x6100120400802000000000000000852c0010800009ac0a493063100290028003705010000000009323548050503460f7f000000000000000401ff00002d19372d3c2d01fa,
  0x6100120400802000000000000000872c0010a00009ac0a49306310093005a008207010000000006719216050503460f7f00000000000000080278000041233c41504101fb,
  0x10006100120c00822000000000000000872c0010a00009ac0a59346310262007800e107010000000000719216050503460f7f000000000000000c032d00005a2d505a6e5501fc,
  0x209001360040442000000000000000943f011034001bb80a4130e20006500280038060100000000009e540705050046147f000000000000004001ff101025324225322901fd,
  0x60209001360040442000000000000000943f0110b4001bb80a4134e200177006e009c060100000000009e540705050046147f0000000000000080025a101032586a32584001fe,
  0x144ca1740000e42000000010000000882e000032090fb4084310e210069003c003f0301000000000041525205050046141f000000000000004001be0b0b30354030353201ff,
  0x20144ca1740800e42000000010000000882e0800b2098fb40c4314e210131006e00ae0301000000000041525205050046141f0000000000000080024b0b0b3f62653f624b0200,
  0x144481b40002e02000000020000000802e000033082ff6484310e21006e003c003f0001000000000042525205050046141f000000000000004001be09093035403035320201,
  0x20144481b40802e02000000020000000802e0800b308aff64c4314e210118006400ae0001000000000042525205050046141f0000000000000080024b09093f62653f624b0202,
  0x144681346004e02000000040000000a22e0000320c0fb4084133a610087003c003f0101000000000043525205050046141f000000000000004001be0a0a3035403035320203,
  0x20144681346804e02000000040000000a22e0800b20c8fb40c4137a610122006400ae0101000000000043525205050046141f0000000000000080024b0a0a3f62653f624b0204,
  0x382e912108088010000000000000000c0ad0930001109b41b41b822c00e9003c003a090100000000008c1c6c050504460a7f000000000000000101be0d0d3743182d194c0205,
  0x382e912108088010000000000000000c0ad0930801109b41b41bc22c025d006e00aa090100000000008c1c6c050504460a7f0000000000000002024b0d0d5f6b1d5537740206,
  0x400000c900000800000000000000000803c0080000059a8084170e210015001e0035070100000000004f6991040403460f7f000000000000000401ff02001e242b3237320207,
  0x400000c900000800000000000000000803c0080000059a8084170e210096003c007d070100000000004f6991040403460f7f0000000000000008027802002a32413e4d3e0208,
  0x400000c900000800000000000000000803c0180800059a8084174e210122007800dc070100000000004f6991040403460f7f000000000000000c032d020037415d5073500209,
  0x200100100100310000000000000000812c0018001009e0085938220012a0050003b040100000000009d4e1f05050046147f000000000000004001be0c0c20324c203c2d020a,
  0x42200100100100310000000000000000812c0018801029e008593c220031b00a000ae040100000000009d4e1f05050046147f0000000000000080024b0c0c3f50743f644b020b,
  0x4000001002b0000000000000000000886c0a05080009a508651022000b400280038010100000000099f85050a0a03460f7f000000ee00e5001001ff050519190f554b37020c,
  0x104000001002b0000000000000000000886c0a05080009a508651022003fc005a0089010100000000069f85050a0a03460f7f000000ee00e5001402780505283214696946020d,
  0x70400000100ab0020000000000000000886c0a05880009a50867142200a2800aa00e8010100000000009f2d050a0a03460f7f000000ee00e5000c032d0505503c19828755020e,
  0x784e124b0800881400000000000000080bd01b006114bb81b41f8a2c0015002800410101000000000056676d040500460f7f000000000000004001be020d2b37482b2d41020f,
  0x4784e12cb0800881400000000000000080bd01b086114bb81b41fca2c0069005a00950101000000000056676d040500460f7f0000000000000080022d020d374d723739430210,
  0x400000100220080000000000000000802c9a40100809ad8c61102200055001e004207010000000000689f9205050046147f0000000000000004017804042d1e4428553c0211,
  0x104000001003200a0000000000000000802c9a40d04889ad8c61142200194004600b207010000000000689f9205050046147f0000000000000008023c08044132583c876e0212,
  0x73a060d336a48fa12000000000000000c3af0110001819a25b5bbf62d0136006e018609020000037c0067908306060446147f0000009e009b000202ff0000563c32563c670213,
  0x40c0300817200000000000000000802e880420488da40c4530ea1007d003c003d07010000000000597d3e08080346143f000000000000000401b4010123192337504b0214,
  0x40c0300817200000000000000000802e880420488da40c4530ea101900078008e07010000000000597d3e08080346143f0000000000000008025a01013228285569550215,
  0x100040c0300817200000000000000000802e8a04a0488da40c6534ea10366008c00e305010000000000597d3e08080346143f000000000000000c032d010141372d5f8c690216,
  0x42200122020900000000000000000822c4000000419a0a84130260002d0032003b010100000000000b5d2102020346147f000000000000004001ff0a0a2832402832320217,
  0x442680122020900000000000000000822c4200000419a0a8413026000aa00500086010100000000000b5d2102020346147f00000000000000020278040a37414537414b0218,
  0x104426c0322024b00000000000000000822eca00a00c99a4ac6134360026c009600e5010100000000000b8f2102020346147f0000000000000003032d040a4b554a4b5f690219,
  0x50004090388817200000000000000000802e8a04a0088da40c6130ea1022b008200a30001000000000068273e080800461400000000f100000002022d0101551e2d556478021a,
  0x60004090308817208000000000000000802e8a04a0088da40c6130ea101fe008c00a301010000000000682705080800461400000000f100000008022d01014b1e554b7d4b021b,
  0x820501208051000000000000000882f0000200109a00843986280019001e003e020100000000008e2244030303460f7f000000db0000001001ff0b063c282a46352d021c,
  0x820501208051000000000000000882f0000200109a0084398628004900320085030100000000008e2266030303460f7f000000db0000002002780b0650322a5a3f37021d,
  0x60004822701208051000000000000000882f9040b00349a818439c62800cd007800e1020100000000008e2244030303460f7f000000db0000000c032d0b0650465c50674b021e,
  0x40000100200011000000000000000802cc020200009a088431072000350028003400010000000000034426030303460f7f000000f50000001001ff0306271e393b2d1e021f,
  0x40000100200011000000000000000802cc020200009a088431072002490078007e07010000000000034426030303460f7f000000f500000020027803064f282f6337280220,
  0x30240000144a00011000000000000000802cda60e00009a488631472007d500fa00da0001000000000003442603030346147f000000f5000000c0032d030645377059643c0221,
  0x4044824300000042000000000000000c82f0000000109a0084390e200006001e00380301000000000922979e06070046147f000002210000004001be110b3225423c1b280222,
  0x4044824300000042000000000000000c8bf000080090ba00b439ce200042004600a80301000000000022979e06070046147f0000022100000080024b110b4b4d7455433c0223,
  0x40006822500000042000000000000000882f0000000109a0084390620004200320038030100000000096614220707004614fe000002210000010001be0b0b32461e32232d0224,
  0x40006823500000042000000000000000882f0040800109a008439c62000a3006e00a8030100000000006614220707004614fe0000022100000200024b0b0b4b6e5a4b3c460225,
  0x804000010e800900000000000000000a22c0000000409a0084131a6000b4006400a103020000033a09685b780c0c0046287f000000e20000008002190a0a375062415c460226,
  0x601000144060800000000000000000942c0a0424000bb5886110a3000980046003a0501000000000953991605050346147f000000f00000000401b410042323412348320227,
  0x601080344060a00000000000000000942e0a0434480fb58c6110a30014e0064007b0501000000000653991605050346147f000000f000000008025a10042d2d4a2d523c0228,
  0x30681080354870a00000000000000000942e2a04b4488fbd8c6514ab203c3009600ea0001000000000053991605050346147f0000000000f0000c032d100446415c50755f0229,
  0x240080908802800000000000000000803e082001082be64c4310e310177003c003f0001000000000027373705050346147f0000000000000004017809092d0f322d5a46022a,
  0x40240080908802800000000000000000803e0a24a108abf64d6714eb103a1008200a800020000033b00a17d7d05050346147f0000000000000008023c0909371e5f378c69022b,
  0x20046860720000940000000000000000882e8000000109a80843906200118006400a10301000000000072220b07070046147f000000ef0000020002ff0b0b436a3c43564b022c,
  0x400000300210001000000000000000882c9a45100009ad0867102200091001e004100010000000000854b050a030046147f000000ee0000001001be0506232337554132022d,
  0x10400000300210001000000000000000882c9a45900009ad08671422007d0008c00aa00010000000000854b050a030046147f000000ee00000020024b05064b412d7d6946022e,
  0x2010c035824722c000000000000000942ea80420088db48c4530eb30076003c00460201000000000916993d0e0500230f7f000001270000000401b40110462330464b32022f,
  0x202810c035824722c000000000000000942ea804a0088fb48c4534eb3012c006e00ab0001000000000616993d0e0500460f7f0000012700000410025a0110732d3a735a410230,
  0x581810c90a088010000000000000000d0ed019000114ba81b47fd22c008c008c00ac040100000000006e629304040046147f0000000000000200022d020d506761503a480231,
  0x3a2b11130821800000000000000000090ad410025010ba00b41b0228000f0032003d040100000000009898980b0a0046197f000000f70000001001be070741371e551e260232,
  0x3a2b11130821800000000000000000090af4100a5010ba00b41b422802fd00aa00a9020100000000009898980b0a0046197f000000f700000020025a0707695f1e91323a0233,
  0x840020034e230000000000000000000a22c0a05000409a508653322000a50046004701010000000000210574090200461e1f0000000000000010012d050a2d3516674e360234,
  0x840020034ea30220000000000000000a22c0a05800489a5086537220032a007800ad01010000000000210574090200461e1f0000000000000020022d050a415320856c4a0235,
  0x6440004b5c220900000000000000000803c0a05120049bd086550a32005f0032004702010000000000818181090400461e1f0000000000000004012d02052d4a462d70370236,
  0x64c000cb5c220900000000000000000803c2a859200c9bd086554a320140008c00b102010000000000818181090400461e1f0000000000000008022d020541706e418c4b0237,
  0x101070100000440000000000000000902c400028000ba0a841307200136003c0042030100000000096a3c010a0a0046147f000000fb0000004001be03033e28413e32320238,
  0x10101070100000440000000000000000902c4001a8088ba0a94f34720043100be00a6030100000000066a85010a0a0046147f0000011900fb0008023c0303523c4b525f500239,
  0x209000320040902000000000000000943e014024080bb80a4130e38007d004600420701000000000995959505050346191f0000000000000100014b1010285041284128023a,
  0x60209000320040b02000000000000000943e0140b4088fb84a4134e38032b00a000b30701000000000695959505050346141f0000000000000200022d10103c78693c693c023b,
  0x6100364400c42000000000000000c03e001000081ba00849b0629003a0028003c070100000000095c6538050504460fbf000000000000004001ff000028284b283237023c,
  0x40006100364400c42000000000000000c03e001080089ba00859bc629004b003200a5070100000000005c6538050504460fbf0000000000000080023c00003c41733c5f4b023d,
  0x3b1c1031080c881200000000000000090af091024190bb41b49b8a2c003a0028003a0601000000000017ac770808034614bf000000000000040001c80d0d41372d321e2d023e,
  0x3b1c1031080c881200000000000000090af091024190bb41b49b8a2c00b4004600890601000000000017ac770808034614bf000000000000080002640d0d554b37462d3c023f,
  0x43b1c1031080c881200000000000000090af0910a4190fb41f49bca2c01b8009600dd0601000000000017ac770808034614bf0000000000000c0003320d0d6e5f415f37460240,
  0x3a6e11110828801000000000000000080ed49300c0109a41b51b822c000a001e003a0301000000000090628e0b0b0346147f000000000000010001c80d0d326914281e2d0241,
  0x3a6e11110828801000000000000000080ed49300c0109a41b51b822c0050003c00820301000000000090628e0b0b0346147f000000000000020002640d0d3c7d1e3228410242,
  0x43a6e1d1308a8f01000000000000000080ef49308c0989a41b51bc22c00c9006400dd0301000000000090628e0b0b0346147f000000000000030003320d0d557d1e4b416e0243,
  0xc040204102000800000000000000000822c0080000449a808417126000370032003d010100000000005d913304020046147f000000000000000101be020a322c37322c3e0244,
  0xc04020c102000800000000000000000822c0080800449a808417526000f2008200a6080100000000005d913304020046147f0000000000000080022d020a3f57623f574b0245,
  0x2000200102308810000000000000000806c0400080009a008413ba6000390028003d080100000000008551730a0a0546147f000000f60000010001ff0e0e3c412c3232240246,
  0x2000200102308810000000000000000806c0400080009a008413ba60019a006e008a080100000000008551730a0a0546147f000000f60000020002780e0e4b503b4141330247,
  0x2000200102308810000000000000000806c0400880009a008413fa60023f008200f1080100000000008575730a0a0546147f0000000000f60300032d0e0e5f6e4f555f470248,
  0x820500400140000000000000000892e0010000119a00a43b862100c3003c004309040000000000209d2205050046147f000000000000004001be0b0032284b323c3c0249,
  0x10000820500400140000000000000000892e0050800119a00a43bc621039d00be00a605040000000000209d2205050046147f0000000000000008024b0b00463c5f466450024a,
  0x4004104341400012000000000000000813c0018021809a8085978a20003200280096080100000000094e090905050046147f000000000000008002c8020c3c4b673c4b37024b,
  0x20300200091000000000000000802cd040000309a8084130220003b0032003f01010000000000633d44030300460f7f000000000000000401c806062d283c2d4b32024c,
  0x400000203002000b1000000000000000802cd040c04389a8084134220014a006400ad070100000000008e4b44030300460f7f0000000000000008024b0806693c14698746024d,
  0x2c20500040040000000000000000882e0000200109a0884330720000a0014003b08010000000000901b1b07070046147f000000570056000101be030b37370f2d3745024e,
  0x10002c20500040040000000000000000882e0000a00109a08843347200069003c00a208010000000000901b1b07070046147f0000005700560002024b030b50551e465572024f,
  0x9330182008000000000000000000f2ad0100010509a0ab41b3a60014a007800430801000000000906820b0b0b0046147f000000000000040001be070a5541283228370250,
  0x9330182008000000000000000000f2ad0100810509a0ab41b7a60054600dc00a80801000000000606820b0b0b0046147f0000000000000800023c070a69553c463c640251,
  0x8004210302008100000000000000000a22c0100000409a00b41bb268013c007800a509010000000006905d830c020446287f0000000000000002024b0a0a2d2841504ba50252,
  0x520101100111000000000000000812cd01800110ba008c9382200006000a004002010000000000447f0e03030046147f000000000000004001be0c06323941322f320253,
  0x20000520101100111000000000000000812cd01880110ba008d93c220008f005000a502010000000000447f0e03030046147f0000000000000080024b0c063c616c3c4d460254,
  0x440820300380060000000000000000886c8031280108a0084b1062000bc003c003d07010000000000a0a0a00a070046147f000001200000001001ff080b56180a5b322c0255,
  0x440820300390060000000000000000886e8271b80108a9085b14620044c006400ab070100000000006ba0a00a070046147f0000012000000020025a080b743614835e4a0256,
  0x1100100180388810000000000000000816c0019001008a108491422000d2001e003c070100000000001d3a390a0a034614ff0000000000000010018208083c2d1e4637280257],
  [0x3100100180388810000000000000000816c0019001008a108491422001fe003c009a070100000000001d3a390a0a034614ff0000000000000020023c08085546325f503c0258,
  0x310010018038881000000000000000081ec0019801008a1085914220032a003c00ea070100000000001d3a390a0a034614ff0000000000000030031e080855465a73643c0259,
  0x1000000000000000000000000001000100000000000000000300140037080100000000001a1a1a0b0b0546147f000000000000004001be0c0c282d3c283723025a,
  0x200005203c4100114000000000000000817c0018021009a008593822000dc0078008e010100000000001a1a1a0b0b0546147f0000000000000008023c0c0c464b28465541025b,
  0x200805e03d4903114000000000000000817e2818821009a44c593c232032500d200e8010100000000001a1a1a0b0b0546147f000000000000000c031e0c0c506932507355025c,
  0x3b2a11110808881000000000000000090ad091004115ba41b49b822c005a003200430101000000000f941c8c08080046147f000000000000010001ff0d0d37551e373737025d,
  0x3b2a11110808881000000000000000090ad091084115ba41b49bc22c0159006400aa0501000000000f941c8c08080046147f0000000000000200025a0d0d5f7d284b4b4b025e,
  0x300911090000000000000000000000090ad010025012be24b4390e28001f001e0037080100000000009731120b0b0346147f000000000000010001be0907374114371e32025f,
  0x300911090000000000000000000000090ad010025012be24b4390e280082003c0082040100000000009731120b0b0346147f0000000000000200025a09073c5f373c283c0260,
  0x4300911090000000000000000000000090ad0100a5012be24b4394e280157006400ea040100000000009731120b0b0346147f0000000000000300032d09075a91505a373c0261,
  0xc0100154800008000000400000000802c9040a00a09ac084130e3200b4003c0040030100000000007f684f0e010523287f0000000000000004014b0f0f281e393c572e0262,
  0x100c0100154800208000000400000000802cb040b00a09ac084130e32016800640090030100000000007f684f0e010523287f0000000000000008023c0f0f3228434675420263,
  0x500c0100154800208000000400000000822eba40b04a89ac0c6134e32041f00b400f3020100000000007f684f0e010523287f000000000000000c032d0f0f463c615a934c0264,
  0x280102804202000000000000000822e0400100819ac08413326000550032003d080100000000009bca5105050046147f000000000000000401780e0e283c282846370265,
  0x20000280102804202000000000000000822e0e44900899ac0c4137af00a28010400b10801000000000021ca5105050046147f0000000000000008023c0e0e50463250825f0266,
  0x44000200382208010000000000000000806c84020a0009a018433f26005c8006e00b4010100000000001a1a1a0a0a004619ff000000f60000080002190e0e875f693232500267,
  0x420100000011000000000000000802c4000000109a088c130320004d0028003d000100000000008e4b5d030300460f7f000000000000001001c806064128195528320268,
  0x40000420300000011000000000000000803c4000800189a188c13432000fd005000ad00010000000000543c5d030300460f7f0000000000000080024b06063c64912846500269,
  0x10441310105160900000000000000000822c4a14200409a5a87930220006e004600a5050100000000000807090b020046147f000000ed00000002024b0c0463512054426d026a,
  0x20040c1300000308000000000000000803e894422088dac1c4130ea900c8005a00460201000000000678902708050346197f000000000000000401b4010132374132552d026b,
  0x420040c1300000308000000000000000803e8944a2088dac1c4134ea90163008c00b30601000000000378902708050346197f0000000000000008022d01013c5f693c7d41026c,
  0x10680100954803420000000400000000966c2a00b01889bcc86534e32056e00a000aa00010000000003687d18010e00461e7f000000fa00000008022d0f0f5a3c305a784d026d,
  0x34001c0102abf210000000000000000802e0a2100088ea40f61b122003980064003d0301000000000f6367590a0a004619ff0000010d0000000401be0704322323324a3b026e,
  0x134001c010aabf210000000000000000806e0aa580188ea40f6bb52200ce4011800a90301000000000f6367590a0a004619ff0000010d00000008025a0704503737507c59026f,
  0x601001300340228000000000000000942e9051340a0fbd0c4130a20006600320044000100000000002e278008080023147f00000000000000040178081028283c46552d0270,
  0x60601001300340228000000000000000942e9055b40a8fbd0c4134a2002bc00a000ac0001000000000f2e278008080023147f0000000000000008022d0810463c46647d410271,
  0x100c0000108800820000000000000000832c8a44e00009ac086130e2103b200a000ac050100000000002b9d7805050046147f0000000000000008022d00005f28375f6e5f0272,
  0x4000004900800000000000000000000803c0880102049ac0841706a100690032004608010000000009377d33040405461400000000000000000401be020032253c3253460273,
  0x4400000c908800000000000000000000803c0880902049ac0841746a1019a009600b300010000000006807d330404054614000000000000000008023c02004b39504b7b640274,
  0x4200004b00050000000000000000000943c018024004bbc0a4170e20005a0032004a05010000000009858e910404052314fe000000000000001001be0210412d3c4b37460275,
  0x420000cb00250000000000000000000943c0180a4004bbc0a4174e20018b007800b305010000000006858e910404052314fe0000000000000200023c02105f375069416e0276,
  0x303004a0b80803201000000000000000802c00009108abae484330e200244008c00a90001000000000049125205050046147f0000000000000200025a09094269414261550277,
  0x40000100a00021000000000000000806c1815900109ad084110220014a001e00a90701000000000036374403030046147f0000000000000020025a080630306d706d3a0278,
  0x8110013c820800000000400000000902c211000000bb0084130e3100ad0050003c010100000000003737370e0e0523287f0000000000000004012d0f10322d263241340279,
  0x8110013c820800000000400000000902c211000000bb0084130e3101f4008c0093010100000000003737370e0e0523287f0000000000000008022d0f1046413a465548027a,
  0x2408110497c820810000000400000000927c2b94a250dbb6586174e31064000b4010e010100000000001a1a1a0e0e0523287f0000000000000300032d0f105a7d625a695c027b,
  0x20908100011000000000000000813c0000030028e249c3986280120006e00480801000000000344313103030546287f0000000000000004012d090637323c375537027c,
  0x4000024908100011000000000000000813c8080830028ea49c3dc62801cc00a000f80801000000000044313103030546287f000000de00de0300030f0906698764413c55027d,
  0x40404000108b10120000000000000000806c915d800288a9184194a3909c400d20105010100000000009a9a9a0f0f052350ff000000000000003003030108485a6c815a5b027e,
  0x50404000108830020000000000000000802c9b45800288ad186594a390a2800be0105070100000000009a9a9a0f0f052350ff000000000000000c030301055a486c5a815b027f,
  0x40004820508810140000000000000000882e1144800388a818439ce3907d000c80105030100000000009a9a9a0f0f052350ff0000000000000c000303010b815a6c485a5b0280,
  0x4000005b42840800000000000000000903e0080a6688bb8ad4534aa002760096010503020000034000809e9e0f0f055a7800000000000000000c03030202507d6f46734f0281,
  0x4000101341841800000000000000000917e0098e4788bb0ad5d34aa002620096010501020000034100809e9e0f0f055a7800000000000000000c0303020c507d6f46734f0282,
  0x44080004938020000000000400000000802c2884b148f8e65b43dc6220ce40140013208010000000000a3a3a30f0f050078ff00000000000003000303090f78965a6478640283,
  0x44080104138121010000000400000000816c289cb058d8a41b59fc2220d7a0122013204010000000000a4a4a40f0f050078ff000000000000000c03030c0f64785a7896640284,
  0x44800013408b0000000000000000000803e0ac5a84889a5ad65142a802a80096010e050200000342007d9f9f0f0f055a78000000000000000300030302045073655a7d590285,
  0x400c000013a020030000000400000000806c2884b048d8a41b41ff6620cb2012c012907030000033d002e2e2e0f0f050078ff000000000000010503030e0f5a825f5a827d0286,
  0x8044200106c00302000000000000000822c9144800688a81841b4a7901e5008c010502020000033f009a9a9a0f0f052350ff00000000000003000303010a5a816c5a485b0287,
  0x43b3c1c332848fa1a000000000000000c0bf0114b6199ca00f59bc62d0041003c010e08020000033c002020200f0f056478ff0000005b005b054003030d0080805a4d4d640288,
  0x3100120109788431000000000000000907c5091981108e8595b1f22003390096010e060500000000005858580f0f050078ff0000000000000144030308065f78635f78470289,
  0x100448f0548a0126c000000010000000882e8a6430090dac9c4710eb1005a0028003f03010000000000ab414105050346141f0000000000000010012d0b0b2d3026413d38028a,
  0x100448f0548a0126c000000010000000882e8a6430090dac9c4710eb101220046008e03010000000000ab414105050346141f0000000000000020022d0b0b3a38395f4e3d028b,
  0x100448f0548a1126c000000090000000882e8a64b0098dac9c6714eb3038400a000ef03010000000000ab414105050346141f0000000000000030032d010b4b4a407a6b58028c,
  0x10000940048002000000020000000802f010005003be24943b8625005e0028003d00010000000000aa424205050346141f0000000000000100012d09093c3e3c282d28028d,
  0x43b3810094804b202000000020000000802f010005003be24943b862500910064008f00010000000000aa424205050346141f0000000000000200022d0909465a493a3b3b028e,
  0x43b3810194804b212000000120000000c0af010085003be24b43bc62d0186009600f000010000000000aa424205050346141f0000000000000300032d0d0964726848454b028f,
  0x201201102000100000000040000000a23e0800020c1bac084533a210046001e003f01010000000000a8434302020346141f0000000000000040012d0a0a2c3e472838290290,
  0x201201102004700000000040000000b23e0800020c1bac084533a21006d003c008e01010000000000a8434302020346141f0000000000000080022d0a0a385361343f360291,
  0x201201102004700000000240000000b23e0800824c1bac084537a210190009600ef0103000003a400a8434302020346141f00000000000000c0032d100a47677a435f480292,
  0x1400001404001240000000000000008b3e0a0420080bb58c65102a100320028002f0501000000000025a735050500460f7f000000000000004001ff00002420392624260293,
  0x10340480340c67f240000000000000008b3e0a44a0480bb58c65142a101a8006400940501000000000025a735050500460f7f0000000000000002027f04004d324e4d38550294,
  0x4200004900000000000000000000000803c00c002006be8084150e210011001e003800010000000009b19191040403460f7f000000000000004001ff020026283e2b322d0295,
  0x4200004900000000000000000000000803c00c003006bea484150e2100a00046008600010000000006b13131040403460f7f00000000000000800278020934385437493e0296,
  0x4200004900000000000000000000000803c00c083006bea484354ea100f5007800af00010000000000b13131040403460f7f00000000000000c0022d0209454a7e47514e0297,
  0x100000000000000000000000000000000000000000019001e002804140000000000840e13030300460f7f000000000000001001ff0606191b232823260298,
  0x120000100000000000000000000000000000000000100000054001e004b04140000000000843d3d030300460f7f0000000000000020027806061e1b1d3c162d0299,
  0x44040024101000011000000000000000803d410082010ba80943fc62800aa007800b908140000000000840e13030300460f7f0000000000000141032d0206325a59323450029a,
  0x244000960000000000000000000000952c020021003be2484330e310087003c004a05010000000009997f4f0505034614e1000000000000010001dc00093649483a323e029b,
  0x244000960000100000000000000000952c0200a1003be2484334e31032f009600b105010000000006997f4f0505034614e1000000000000020002410009426d6a484456029c,
  0x2046822500008042000000000000000c82e0000000119a00943b06280001000a003d0805000000000fb4a6a60606004614fe000000000000040001e111114f3d2a27262c029d,
  0x2046822500008042000000000000000c82e0000000119a00943b062800090014008208060000037209b4a6a60606004614fe000000000000080002781111624b342f2d36029e,
  0x6046822500008042000000000000000c82e0000800119a00943bc6280064006e00f808050000000000b4a6a60606004614fe0000000000000c00032d11119a704b44414e029f,
  0x8205480000400000000000000008b2e0a00200109a00c43306b10136005a004605010000000000b39d9d05050046147f000000000000000101c80b0b393e3430414202a0,
  0x100008205488001400000000000000008b2e0a00a00109a80c63346b1038e00aa00ba05010000000000b39d9d05050046147f0000000000000002022d0b0b5161443e647b02a1,
  0x2450c0328857e2a000000000000000922e0a44300a1dbc8c41306b10050003c00460801000000000971685908050046197f000000db0000000401dc0101302e2b3e524302a2,
  0x702c50c0328857e2a000000000000000962eda44b48a9fbc8c6134eb3055000d200ad0801000000000071685908050046197f000000db000000080241100147453a4e7c5f02a3,
  0x44001168400800000000000000000973e0010801019a00841306310118007800a5080a0000034506a9a9a905050046147f000000000000004002a000005a41663c504b02a4,
  0x3b3c10314808801200000000000000090ad0110201119b01949b862d0023001e00470701000000000014973305050046147f000000000000004001be0d0d3c3f4436303e02a5,
  0x3b3c10314808801200000000000000090ad0110a01119b01b49bc62d0055003c00a3010200000344009e973305050046147f0000000000000080024b0d0d5153684c304a02a6,
  0x40003100100300020000000000000000806c0860104201a81c4130220001400500041050100000000006363630a0a0046147f000000000000001001b4070825231c64502d02a7,
  0x40003100100300020000000000000000806c0860104201a81c4130220002d0050009d050100000000006363630a0a0046147f0000000000000020025a0708312d23966e3b02a8,
  0x40003100100310020000000000000000806c0860904209a81e4134620021200aa00ea05020000036000b0b0b00a0a0046147f0000000000000420032d070896323c96323c02a9,
  0x3846002100008002000000000000000c0ed0120001119b019493862800050014004409010000000000a5838306060046147f000000000000000101c81111413f173c344e02aa,
  0x3846042100008002000000000000000c0ed0120801119b019593c62c009b005000a209010000000000a5838306060046147f0000000000000002028c111159631d48486502ab,
  0x46402100008002000000000000000c22d010000010ba04949b86280023002800440801000000000054afaf06060046147f000000000000001001c81111393b3142303e02ac,
  0x46442100008002000000000000000c22d010080010ba04949bc6280032005000a80801000000000054afaf06060046147f0000000000000020028c11114b554856505202ad,
  0x320100138084000000000000000000090ac090024080bb8594938e2800230028003a0101000000000997157e0c020046147f000000000000000401be0d102e252d35363502ae,
  0x2320100138085001000000000000000090ac0900a4480bb859493ce2c01d6009600a90101000000000697157e0c020046147f000000000000000802500d104b4449585c5602af,
  0x84442001022000080000000000000008a2eda45340e0bbdac65b3a2001360032003d050100000000007c61b509090046147f000000000000000401780a0538273243342a02b0,
  0x48444200102a202080000000000000008a2eda45b44e8bbdac65b7aa203c0008200af050100000000007c61b509090046147f0000000000000008022d0a0556364473694802b1,
  0x80300156000500000000000000000a22c0000000409a0aa4930360004900320040050100000000095b8f260e020046147f000000000000040001e10a033c3c1e3c3c3202b2,
  0x80300156000500000000400000000a22c2000800489a0aa5934360032f00b400ad050100000000065b8f260e020046147f000000000000080002370f037b612c5a4b4102b3,
  0x4200156000100000000000000000a27c0840000409a0a8453132000530032004201010000000009b2b2b2090205460f7f000000000000010001e10a0a3f3a2c3e353202b4,
  0x48004200156000100000000000000000b27c0840800489a0aa453532001610082006401010000000006b2b2b2090205460f7f000000000000020001370a0a59783b58494702b5,
  0x2000100141100010000000000000000933e2b1800100da5085938220003c0032003a020100000000005e08570e010046147f000000000000004001be000c2b3d4621262c02b6,
  0x2000100171103210000000000000000933e2b1880508da508593c22000d2006400a8020100000000005e08570e010046147f0000000000000140024b000c5e6d6d34373e02b7,
  0x10480000178a30020000000400000000902c2a05000009ad0c61106320104005000480501000000000005adad0e0100461e1f0000000000000004012d0f052d2d304d593a02b8,
  0x10480000178a30020000000400000000902c2a05804009ad0c61146320a8c00fa00b60001000000000045adad0e0100461e1f0000000000000008022d0f053b454777795202b9,
  0x48020016e320020000000000000000986d2f15001019a51849bf27800fc008200480101000000000075aeae010100461e1f0000000000000001012d0e053f432e323b4d02ba,
  0x48020016e320020000000000000000986d2f15801019a51979bf27808ca010e00680101000000000075aeae010100461e1f0000000000000002012d0e055c633a484d7b02bb],
  [0x41804002160408002000000000000000c02c0100800019a01a41bc62d00eb006400b809010000000000b6383805050046231f0000000000000800022d1111826e3c41415f02bc,
  0x660440cc108c03328000000000000000803e98c4a22acdbc0c4170ea100d7005000af0301000000000368540708080046147f000000dd00000008026402013f4a764b5c4e02bd,
  0x2104100141501016000000000000000813e001880180ba8085930620001600140097020100000000093935a706050046147f000000000000008002b4110c435165393a4302be,
  0x13c220001003a8002000000000000000c8ac0925080008a51945986680039001e006407010000000009051d1d0a06054619ff0000000000000410013c110596323296323202bf,
  0x80300150000000000000400000000802c4800000009a0a84930620001c001e003c06010000000000b75d9d0e0e0523287f0000012700000400012d0f0f4b372823322d02c0,
  0x80300150000000000000400000000802c4800000009a0a8493362000af0050009e06010000000000b75d9d0e0e0523287f0000012700000800022d0f0f71533c354b4402c1,
  0x50080380154803000000000400000000802c6a00804089a2e8793766005e100c8010e06010000000000b75d9d0e0e0523287f0000000000000c00032d0f0f966e5046645a02c2,
  0x4110000100748002000000000000000c06c011080000bb01941bc62c001e001400a507010000000006aa9e9e0a0a0446147f0000000000000010024b110857504b5b503902c3,
  0x380983110004804000000000000000098af8a0011010ba01b439062000460028003e050100000000098b771e0b070046147f000000000000000401780b073c322630462b02c4,
  0x380987110005804000000000000000098af9a0091418ba01b639462802c6009600a6050100000000008b771e0b070046147f0000000000000008023c0b075241384c6e5502c5,
  0x380983140004804000000000000000098af082009110be2cb439862000320028004305040000036c000f77350b0b0046147f000000000000001001780b07372c3346423102c6,
  0x380983140004804000000000000000098af082089118be2cb439c620007d005a00ad05040000036f000f77350b0b0046147f0000000000000020023c0b074b3a547a5a4102c7,
  0x2200102200000000000000000000826c0c25000009a40841b326003e30064003d0101000000000005731401010046147f000000000000001001be0e0e23201c55453702c8,
  0x10002200102a10020000000000000000826c0e25800009a40861b727013ba00c800b40101000000000005731401010046147f000000000000002002370e0e2e2c1cb8755f02c9,
  0x428020c970000804000000400000000913d108012005bb80fc350e20005000320031060100000000098c977704040046147f000000000000004001be0f02282d37231e2802ca,
  0x4428020c970000804000000400000000913d10809200dbb84fc354e220352009600bb060100000000068c977704040046147f0000000000000080022d0f0250617b50465502cb,
  0x440e0000128090000000000000000000c86e0910800098a019593c67c0866012c013201020000000000bbbbbb0f0f050078ff0000000000000003032d11116283635f837e02cc,
  0x4400000cb28050000000000000000000943d08809620cab80b4174e2207ee0244013200010000000000bababa0f0f050078ff0000000000000003032d02106283635f837e02cd,
  0x100811101f8830000000000400000000802e2a04800088a12c61946200bea01f4010e0305000003a600bcbcbc0f0f050078ff00000000000000030303040f5f515f79646c02ce,
  0x1c660021007a0002000000000000000c8ac0925880008a519459c66c00580046010e090200000382001d1d1d0f0f054619ff00000000000008100303110596643296643202cf,
  0x63b381c13084dfc1a00000000000000090af011084998ab01f49bce2c005a0032010e06020000038700aaaaaa0f0f056478ff00000000000003000303070d8296463c6e5002d0,
  0x1c000200900820000000000000000000806c0a24890ca8e3ec6714630079e00aa010e050100000000000b0b0b0f0f056478ff000000000000030003030a095a8246786e5002d1,
  0x4000828500000042000000010000000882e0040100359a00843d8621000f001e004005010000000000cb4141040403460f1f0000000000000001012d020b32322a37374402d2,
  0x4000828500000042000000010000000882e0040100359a00843d862100a00046009305010000000000cb4141040403460f1f0000000000000002022d020b4646344b4b4e02d3,
  0x2b70296031e0000000000000004400182c500000042000000090000000883e004092035da00a47d8621016e00a000ef05010000000000cb4141040403460f1f000000000000000c032d070b6464464b6b4e02d4,
  0xc0000900000002000000020000000803c0040130029f248c110eb1002b0028004000010000000000164242050503460f1f0000000000000040012d0909283c4628412d02d5,
  0xc000090000000a000000020000000803c0040130029f248c110eb100fa0046009300010000000000164242050503460f1f0000000000000080022d090932505a32554102d6,
  0x2b80297031f000000000000000302c00c0b8080322a000000120000000943c024097c8adf24ce114eb1033e00b400ef00010000000000164242050503460f1f000000000000000c032d10095a503c5a735f02d7,
  0x24200166000802000000040000000a22c0000020419a0084133261004b0028004001010000000000cc4343050203460f1f0000000000000100012d0a0a38422836363202d8,
  0x24200166000802000000040000000a22c0000020419a008413326100af003c009301010000000000cc4343050203460f1f0000000000000200022d0a0a515b3245453c02d9,
  0x2b90298032000000000000000008024200166008802000000240000000e22c0100820519a01b413b26101b800b400ef01010000000000cc4343050203460f1f0000000000000300032d110a747e3c4a4a5002da,
  0x400000cb20000c00000000000000000803c00c000005bc80c4550621000c001e00350401000000000f355c33040400460f7f0000009b0000000401ff02001e1e411e4b2302db,
  0x400000cb20000c00000000000000000803c00c000005bc80c45506210094003c007c04010000000009355c33040400460f7f0000009e000000080278020032284b32553702dc,
  0x400000cb20000c40000000000000000807c00c000007bc80c45506210104006e00da040100000000007d5c33040400460f7f000000980000000c032d02004b4b3c4b785002dd,
  0x10040100140400804000000000000000803c000020001bb5086110a21003c00280033050100000000095badc6050500460f7f000000970000000401ff00001e1e2d1e463002de,
  0x1004010014841782c000000000000000803c020020081bb5086110a31008e004600920502000003c4065badc6050500460f7f0000009700000008027f00003c372d3c6e5802df,
  0x100101100001000000000000000812c9018021009a0084938220002c0028003c07010000000009444444030300460f7f000000000000000401ff06062d372e2d3e2f02e0,
  0x100101300001000000000000000812c9018021009a008493822000690032008c0301000000000fd9d9d9030300460f7f000002220000002002780c064b37245f523902e1,
  0x40000100101300011000000000000000816c9018823109a0085b7c22001c2009600e10102000003c5001a1a1a030300460f7f0000000000000300032d0c064b912b5a464d02e2,
  0x400c0108a05028000000000000000802c0e04204c8ba40c61306a10046003c00440601000000000953593409090046147f000000990000000401e101012f2a3f39522f02e3,
  0x400c010aa15028000000000000000802c0e04a04c8ba40c61336e1070800aa00a70801000000000053593409090046147f0000009500000008023c0e01433e2b4d846102e4,
  0x400400d102000002000000000000000803c00c0068049a90841d0a290022003c00a700040000038d06d8d8d80404004614bf0000005e00000200022d020946625d46464b02e5,
  0x783e004100400013000000000000000c03d410002010ba819c1d86280002000a003d02010000000009af137606030046147f0000005e0000004001be1106283754282d2802e6,
  0x783e004100400013000000000000000c83d410002010ba819c3d86280005001400a20202000003ce06af137606030046147f0000005e00000080024b1106465f7c3c373c02e7,
  0x10440000168620022000000000000000842c0805000019a4084110a30005c003200380502000003cf09504833050500460f7f000000000000000401be0505281e3c28412d02e8,
  0x2d701bc039d000000000000000104400001686200a2000000000000000842c0845000019a40c4110ab000fa005000aa05030000039003509233050500460f7f0000000000000008025a050541377041734b02e9,
  0x44200144000002000000000000000a23c0200000409a008613126000030014003d01020000038c09d0d0d00c0c04460f7f0000000000000001023c0a0a19192814142d02ea,
  0x8203610302208402000000000000000822cc400200409a0a841b336000500028003d010100000000009007c402020046147f000000f50000001001be0a03342b2d3e353202eb,
  0x8203610302218402000000000000000822cc400200409a0a845bb3600091004600ad010100000000009007c402020046147f000000f500000020024b0a038e3523983f3202ec,
  0x10440000100a20220000000000000000802c0a0020000da5086110230044c0064004d0501000000000927c01405050046147f0000010d0000000401be0404372d2d46644602ed,
  0x10440000100a20220000000000000000802c0a00a0008da508611023023f000fa00af0501000000000627c01405050046147f0000010d00000008023c0404553723647d6402ee,
  0x8030220102208011000000000000000a22cd400000409a008c1332200028001e0036030100000000090bc7c7030200460f7f000000f30000040001c8060a48281b34282602ef,
  0x48030220102208011000000000000000a22cd400000409a018c1b3220033400b4009f0302000003cc060bc7c7030200460f7f000000f3000008000264060a84322a5c464402f0,
  0x4000820500000059000000000000000882e9040200b09a008c390620000f001e0032090100000000097e666607070046147f000000ef0000000401be0b0b23322323372802f1,
  0x44000820700800059000000000000000882e9040a00b0da80cc39462000b9005a00a80902000003c6037e666607070046147f000000ef00000008024b0b0b5a502d5a694602f2,
  0x132820500008050000000000000000c82f001000010980884398620000f00140039060100000000092c1b2307070046147f000000570056040001be110b4b410f37232802f3,
  0x132820500008050000000000000000c82f00108011098088439862000730064008e060100000000062c1b2307070046147f0000005700560800024b110b645a1e502d3c02f4,
  0x204000b50040402000000000000000802c800031082bf2e8c110b220030003c0040040100000000090cd4d40e010046141f000000e4000000400178090328474d282c3002f5,
  0x40204000b50040402000000000000000802ca00033082bf2e8c110b2200de007800a80402000003c70f0cd4d40e01004614fe000000e400000080022d09033c6f753c404402f6,
  0x10000091188805028000000000000000802c0a4020488dac0c6110ab1004400320044090100000000093867da050500460f7f0000000000000004018c0100322d32324b4602f7,
  0x100000d1188805228000000000000000802c0a40b0488dac0c6114ab3054600d200af090100000000067f67da050500460f7f0000000000000008024601003c373c507d7802f8,
  0x44820508000142000000000000000c82e0000000109a01843986200020001e002a06010000000009af0c660707034614fe000003740000000101eb0b0b261e20261e2a02f9,
  0x44820708000142000000000000000c82e000020090da018439862000520046006606010000000006af0c660707034614fe000003740000008002780b0b30283e30283402fa,
  0x40044820708000342000000000000000c83e0000a2090da018439862000d6007800e606010000000000afd6660707034614fe000000000374000c032d0b0b62324862784802fb,
  0x700e837580008042000000000000000c8be010002091ba008439ce280003000a00aa030100000000091ecda60707044614bf0000037300000800023c11116e52645a343302fc,
  0x323b0103080d800200000000000000088ad0b00a4d988a01f79b8e2d02f8009600ac0801000000000fb48c2705050546147f0000000000000800022d0d006e5a3c503c5a02fd,
  0x402401c0341810c60000000000000000803e0a20a2498fac0e6534ea1033c00c800ac0801000000000f80dede05050546147f0000000000000008022d01013c28505a786402fe,
  0x100000000000000000000000a22c0000000409a008c130a6000780032002e07010000000000c1c1c109030046147f0000000000000040015a0a061e145028231902ff,
  0x680412103022000a9000000000000000b62c9d40b00e89acacc133be0043800c800ba07010000000000c2c2c209030046147f0000000000000020022d0a065a3c288c7d4b0300,
  0xd0b0311002b0000000000000000000802c4a05000109a50b611022002bc003200400501000000000908c3c30b0b00460f7f000000f700001010018c04072d460f5037370301,
  0xd0b0311002b0000000000000000000802c4a05848909a58b611022009c4008200a80501000000000608c3c30b0b00460f7f000000f700001020023c04074b64236e4b550302,
  0x105410000010000000000000000000802c0100008001801800b8860000c001e0090040100000000066dd7d7020204460f7f0000000000000800023c0a0a821e05823c370303,
  0x102608030000000000000000803c1850b00008e908413067304b500be006b070100000000000404040f0f050078ff0000000000000002010300005f5f3b5f5f5f0304,
  0x4408000492a608030000000410000000867c1850b80048e94a493567303ed00e6010107120000000000e1e1e10f0f050078ff0000000000000003030300005f5f5f5f5f5f0305,
  0x1440000108580020000000000000000c03c0b258a1009a519639c2280190001e009a050e000003aa00c5c5c50a0a034619ff0000005b00000410021e0205643c3c643c3c0306,
  0x10040000308c00020000000000000000803c0b4032800d200c61106a900c7002800a801010000000000d5d5d505050546147f0000000000000008022d00005f4b414173410307,
  0x100c0100970210820000000400000000806c2204a958a9e6486714fb3084800c800aa000100000000034b4b4b0e010046147f000000f90000002002460f09555b24874e3c0308,
  0x46101149580126000000000000000813e8038a0180ba01859102210021001e00980702000003cd09051fa0060500460a7f000003710000000802b4080c4928603f62410309,
  0x2d60247039c0000000000000000121b070100400002000000000000000d0ad515035180ba00bd99caa10007001400a70204000003b909d1d1d10b0b0046147f0000009600000800022d1107693260505a37030a,
  0xb232210144008810000000000000000a2ad0440a40c09b81941bbba800be005a00a60901000000000693addb0c0c00460f7f000001470000000802500d0a46465c466944030b,
  0x140c43049328108100000004000000008e2a2b909009d9a24a7bff63b073a012c00aa080100000000030d9dc90e010046147f0000009c0000020002460f005b8724553c4e030c,
  0x3005031700210020000000000000000826e0a60b4410ba82e63346200834018600b503010000000003c8c8c80a0a004619ff000000000000000802190b075a5628648346030d,
  0x80000154200a28000000400000000802c3a40300299ad0c6190ab30129003c003c070100000000098e2bab0e0e0546287f0000014600000010012d0f0f2d2d2d41372d030e,
  0x80040154200a28000000400000000802c3a40304a99ad0c6190ab301d600780093070100000000068e2bab0e0e0546287f0000014600000020022d010f4641415a4b37030f,
  0x2d802b3039e000000000000000504c03c0174a07a28000000400000000806cba41b04a99ad4c6194ab3030e00a0010e0702000003c8008e2bab0e0e0546287f0000000001460030032d010f6964557d6e4b0310,
  0x2ba02cd032100000000000000005000108121201020000000000000000c93e019882225a381859fca3900cd00b40101020100000000008ce2e20f0f05460fff00000000000000c00303110c4b5f825573460311,
  0x2ba02cd032100000000000000003830000100288000000000000000000c82e010080199a301b599ce2c00ba00780101090100000000008ce3e30f0f05460fff00000000000003000303110d73825f4b55460312,
  0x2ba02cd0321000000000000000010008a0508a00048000000000000000cc2e0944e04b983414439ceb901c700be0101000100000000008ce5e50f0f05460fff000000000000000c0303110b5f554b7382460313,
  0x2ba02cd03210000000000000000503820030228c000000000000000000ea2e0100c00c18301a41bfa2800d400820101060100000000008ce4e40f0f05460fff0000000000000c000303110a825f55734b460314,
  0x100140028010100000000006d6d6d0f0f050078ff0000000000000001012d0d0d1f1d251f1d2b0315,
  0x270f000a008c010100000000000505050f0f050078ff0000000000000410022d0d0d831d25831d2b0316,
  0x2d402c90399000000000000000000c0100368e0002000000000000000085ec0b34800088e6597b9c63d08fc0154013208010000000000e6e6e60f0f050078ff000000000000000c032d080d5971616b89890317,
  0x2d502ca039a0000000000000000503910c902008010000000000000000c0ad0190933088a81b5bdf63d04b00190013206010000000000e7e7e70f0f050078ff0000000000000300032d070d6b89615971890318,
  0x3421811388048420000000000000000c0ae8010005018a1b95998324022b0078010108010000000000e0e0e00f0f050078ff0000000000000c00032d0305837f672f356d0319,
  0x100c00c0100805129000000000000000802c8a24a00a0ca40ce550aa10d0800f0010100010000000000e0e0e00f0f050078ff0000000000000024032d010635354f8b8b6b031a,
  0x60280100103050391000000000000000803c8000800a9cb00c4157a2000fa00b4010108010000000000e0e0e00f0f050078ff00000000000000c0032d0106258997258947031b,
  0x100181189010000000000000000c92e0018805908a0185b3c62803e8017c010104010000000000e0e0e00f0f050078ff0000000000000300032d0c0c47ad53475953031c,
  0x10000120108b90060000000000000000806e0aa4ca4108e2486714220270f0398010103010000000000e0e0e00f0f050078ff0000000000000114032d0208656b3d676561031d,
  0x44000024700600000000000000000000802c1040c00208880c41102280001001e010108010000000000e0e0e00f0f050078ff000000000000000c032d080b1f3b6d83b53b031e,
  0x10080540b507000280000004000000001428aa24b0480aa6ec651422222b00226010104010000000000e0e0e00f0f050078ff0000000000000003032d0f1035612b3565df031f],
  [0x3580100b303a003000000000000000090ec1a75d4580aac1d631c22c08fc00f0010e0404000003c900e8e8e80f0f050078ff000000000000020403ff0d0d597f4f656b610320,
  0x6112108700030000000000000000c0e600388c1398001e4b1d20803250064010e0702000003bc00dcdcdc0f0f050078ff000000000000030003031108738241735f500321,
  0x2bb02c80322000000000000000602c00c1308c47320000000000000000802e8904b30a9ea40e45102a900de0046010e070100000000006565650f0f050078ff0000000000000048030307015a5a7d507d5a0322,
  0x204400150000c1200000000000000080288000000018a0a041103200012003c00bd06010000000000e0e0e00f0f050078ff0000000000000040032d03034349494349430323,
  0x6228450c950000c100000004000000009438b08052201aaae8c91432205dc016800f306010000000000e0e0e00f0f050078ff0000000000000300032d0f03497f794949490324,
  0x13d30001188b9802000000000000000000e84a25804008a510659822020080226010107010000000000e0e0e00f0f050078ff0000000000000030031e080565350dd3833d0325,
  0x10b010b00440800000000000000000902c000039882af24b451ce2c008200b4010108010000000000e0e0e00f0f050078ff0000000000000300031e07094f976b357f350326,
  0x602c01c0341803308000000000000000852a0018824a9ca80c5910aa901bd0096010e020100000000000a0a0a0f0f050078ff00000000000000c003030c0c50668f4b70580327,
  0x73f283c118888821000000000000000090ef891080598cbc1f5bbde2c026000aa010e000400000328002e2e2e0f0f050078ff000000000000010803030d0d14b49614b4320328,
  0x73f283c138828821000000000000000090ef891080598cbc1f5bbde2c026000aa010e000400000328002e2e2e0f0f050078ff000000000000042003030d0da0465aa046320329,
  0x73f283c138808f21000000000000000090ef891080598cbc1f5bbde2c026000aa010e000400000328002e2e2e0f0f050078ff00000000000000c003030d0d5a5fb45a5f32032a,
  0x3c40000101020811000000000000000802d430080000ba50b61b472000410032009405030000032b008e6b6b030300460ffe000000de00000020022d0406553b24694f3c032b,
  0x3c40000101300c31000000000000000806d412080000ba00b41b472000410032009400030000032b008e6b6b030300460ffe000000de00000410022d08065f45245f453c032c,
  0x40000824508400042000000000000000c82e0140800108a009439462000340028010e03020000032d002020200f0f036478ff0000009d009d00c0032d020b4b787f4b6764032d,
  0x50811041760a8020000000400000000902d2394b15158a80b79b463a196402b2013204020000032e001a1a1a0f0f050078ff000000000000000303030f0764785a647896032e,
  0x7209110101040810000000000000000902d011801100aa01a59386200003001e00b600060000032f001a1a1a0b0b004614ff0000000000000140022d090c6b69566b4132032f,
  0x7209110101040810000000000000000902d011801100aa01a59386200003001e00b600060000032f001a1a1a0b0b004614ff0000000000000140022d0a0c6b69566b41320330,
  0x7209110101040810000000000000000902d011801100aa01a59386200003001e00b600060000032f001a1a1a0b0b004614ff0000000000000140022d0e0c6b69566b41320331,
  0x7209110101040810000000000000000902d011801100aa01a59386200003001e00b600060000032f001a1a1a0b0b004614ff0000000000000140022d020c6b69566b41320332,
  0x7209110101040810000000000000000902d011801100aa01a59386200003001e00b600060000032f001a1a1a0b0b004614ff0000000000000140022d0b0c6b69566b41320333,
  0x4000304102400000000000000000000802c011000050ba34a5b336610008001e0093000400000334003b3b3b0b060046197f000000f300f30001022d09094646464646460334,
  0x4000304102400000000000000000000802c011000050ba34a5b336610008001e0093010400000334003b3b3b0b060046197f000000f300f30001022d0a0a4646464646460335,
  0x4000304102400000000000000000000802c011000050ba34a5b336610008001e0093080400000334003b3b3b0b060046197f000000f300f30001022d0e0e4646464646460336,
  0x40004820500000040000000000000000c82e0040800109a0084394620005d0032009e090200000337007a7a7a07060046147f000000ef00000200024b0b0b4e5755463c460337,
  0x210102020000000000000000000822c4000000409a0084133260003f001e0041010200000338099f723c0b020046147f000000000000000101be0a0a3e392230304c0338,
  0x10000210102030000000000000000000a22c4a04800409a5a86137260012b005a00a6010200000339069f723c0b020046147f0000000000000002024b040a525c2744536f0339,
  0x804000010e800900000000000000000a22c0000000409a0084131a6000b4006400a103020000033a00685b450c0c0046287f000000e30000008002190a0a375062415c46033a,
  0x40240080908802800000000000000000803e0a24a108abf64d6714eb103a1008200bd01020000033b00a17d7d05050346147f0000000000000200023c0d09698c37691e69033b,
  0x43b3c1c332848fa1a000000000000000c0bf0114b6199ca00f59bc62d0041003c010e08020000033c002020200f0f056478ff0000005b005b0054030301004d4d805a8064033c,
  0x400c000013a020030000000400000000806c2884b048d8a41b41ff6620cb20168013b07030000033d00a3a3a30f0f050078ff000000000000030003030e0f64aa5f5a787d033d,
  0x400c000013a020030000000400000000806c2884b048d8a41b41ff6620cb2014a013b07030000033d00a4a4a40f0f050078ff000000000000000c03030e0f5a785f64aa7d033e,
  0x8044200106c00302000000000000000822c9144800688a81841b4a7901e5008c010502020000033f009a9a9a0f0f052350ff00000000000003000303010a5a816c5a485b033f,
  0x4000005b42840800000000000000000903e0080a6688bb8ad4534aa00276008c0105030200000340009090900f0f055a780000000000000000c0030302025a6e7950644f0340,
  0x4000101341841800000000000000000917e0098a4788bb0ad5d34aa00262012c0105010200000341000a0a0a0f0f055a780000000000000003000303020c50916546694f0341,
  0x44800013408b0000000000000000000803e0ac5a84889a5ad65142a802a80082010e050200000342001616160f0f055a7800000000000000000c0303020450695b5a91590342,
  0x43a290f1302047800000000000000000d0adc100bd098bb08f5934f200195008c010e060200000343001717170b0b0346147f0000000000001300032d03075faa8250413c0343,
  0x3b3c10314808801200000000000000090ad0110a01119b01b49bc62d0055003c00a308020000034400ac973305050046147f0000000000000080024b0d0d5153684c304a0344,
  0x44001168400800000000000000000973e0010801019a00841306310118007800a5080a0000034500a9a9a905050046147f000000000000004002a000005a41663c504b0345,
  0x44001168400800000000000000000973e0010801019a00841306310118007800a5080a0000034500a9a9a905050046147f000000000000004002a000005a41663c504b0346,
  0x44001168400800000000000000000973e0010801019a00841306310118007800a5080a0000034500a9a9a905050046147f000000000000004002a000005a41663c504b0347,
  0x44001168400800000000000000000973e0010801019a00841306310118007800a5080a0000034500a9a9a905050046147f000000000000004002a000005a41663c504b0348,
  0x44001168400800000000000000000973e0010801019a00841306310118007800a5080a0000034500a9a9a905050046147f000000000000004002a000005a41663c504b0349,
  0x44001168400800000000000000000973e0010801019a00841306310118007800a5080a0000034500a9a9a905050046147f000000000000004002a000005a41663c504b034a,
  0x44001168400800000000000000000973e0010801019a00841306310118007800a5080a0000034500a9a9a905050046147f000000000000004002a000005a41663c504b034b,
  0x44001168400800000000000000000973e0010801019a00841306310118007800a5080a0000034500a9a9a905050046147f000000000000004002a000005a41663c504b034c,
  0x44001168400800000000000000000973e0010801019a00841306310118007800a5080a0000034500a9a9a905050046147f000000000000004002a000005a41663c504b034d,
  0x43b3c11212a00f010000000000000000c0af011081199bb01b49bce2c01e400a0011608020000034e00b6b6b60b0b0523147f0000000000000300032d110d87a564415544034e,
  0x40082182151103010000000000000000812c0218805899a00c59bc2200267008c011302020000034f0068686805010346147f0000000000000300032d0f0c6ea52d695f5a034f,
  0x10080820780010040000000090000000882e0240800119a088639c731061300f00119030200000350002f2f2f07010346141f0000000000000600032d030b787a507b64500350,
  0x4080084950003000000000120000000802c2ac09168f9ee4c6354633045100aa011d04030000035100b5b5b50e010346141f0000000000000300032d0f095582646f824e0351,
  0x4080084950003000000000120000000802c2ac09168f9ee4c635463303ed00aa011d000300000351004646460e010346141f0000000000000300032d0209739f644e684e0352,
  0x41b383c114e0cf21000000000000000080af8b1485598cbf5f7bbfeec04f600e6015f060300000353005050500f0f050078ff00000000000003000303010d649a8264be6a0353,
  0x41b383c114e0cf21000000000000000080af8b1485598cbf5f7bbfeec014a0096015f060300000353000f0f0f0f0f050078ff000000000000030003030d0d78c28c46966a0354,
  0x44004081b00c03308000000120000000802c8a449308bdee4c63146b1020800be011c0002000003550003030305050346141f000000000000000c032d010950826450a0500355,
  0x4110c0d110808f210000000000000000802f890080098da41f413c6ad013b008200b3000200000356004a4a4a08080046147f0000000000000080025a0d0155506455643c0356,
  0x60201001960040804000000000000000942d0000a5002bf2ca4314e3001ef00be00d2040200000357005e5e5e05050523147f0000000000000200022d09105a8c735a5a4b0357,
  0x104c1380156b37a20000000000000000926c2a15f04889af4c7f37e320f6e00dc011c070200000358006f6f6f01010523237f000000ee00000030032d0808503c32e68c460358,
  0x23a19111302048400000000000000000d0ad4110b5180bb00b5934e280082007800c2040200000359009e9e9e0b0b0423197f000000f700000008022d0707535d4b4ba5400359,
  0x10481380154a77a20000000000000000962c2a15b04889bf4c7d37e3209f600fa013b03020000035a002d2d2d01010523287f000000000000000c032d1005785f4796a464035a,
  0x44000004300a00021000000000000000807c1040824a4ba90c41fc72004e200c800d200020000035b0065656503030046197f00000000000000080219080664414b8c9646035b,
  0x20400080380a00001000000000000000802c1a44804a8ba40c65346a0024e00aa00d205020000035c03b8b8b803030546197f0000000000000008022d02065a4169789b41035c,
  0x4440000c954020020000000000000000802c0a85a0604bbf486574e32031600d200d706020000035d00b5b5b504040546231f0000000000000080022d02055f4696558750035d,
  0x400042c1158305208000000000000000906c8a44b0088da40f61346b9023f008200db01020000035e005b5b5b08050346191f0000000000000104022d0801468c70589146035e,
  0x10080aa1542014040000000000000000802e0e40800989a40e63bf260073a010e00d008020000035f0075757507010546147f000000f600000104023c0e0b69841e69845a035f,
  0x40003100100310020000000000000000806c0860904209a81e4134620021200aa00ea05020000036000b0b0b00a0a0046147f0000000000000108032d070832963c32963c0360,
  0x808028015e204010000000240000000b26c2a20800c89a40c653727103f300a0011c01020000036100b2b2b202010346141f0000000000000c00032d0a0a73874e78674f0361,
  0xc53c0146007a02000000000000000822c0a0090088baf4e7bb767103e800dc00cf05020000036203b9b9b90101004614fe0000000000000002022d0000643c64647d690362,
  0x81200156000920000000000000000b22c2214a04409b3487937a700bea028a00e0010200000363036868680e0c0546057f0000000000000008022d100a8246516d9b5f0363,
  0x6020130134a848100000000000000000942d1954b1521bbf4a5937e6801ea007800c6080200000364039c9c9c05050323197f0000000000000008021e10103c73733c96410364,
  0x43b381c13480cf010000000000000000c0af011084198bb01b41bce2c01e00078010e0502000003650024242408080346143f000000f80000030003320d0d69af964132370365,
  0x20004080300200201000000000000000802c0a44904a8bac0c65347a1027100aa00d2010200000366005c5c5c03030546197f0000000000000008022d010669284b73b9500366,
  0x40600090302745024000000000000000906e0944a41a89b7ce4335e2000eb006400a80402000003670025252506050446147f0000000000000014022d11085f37327d69320367,
  0x40000100140100810000000000000000852c001880102ba048593c23001b800b400c90202000003680016161605050546147f0000000000000080022d0c0c508787504b460368,
  0x50480000154020028000000400000000822caa44904a09af4c613463203b600be013b010200000369009f9f9f0e010546287f000000000000000c032d040f5f785c73aa6c0369,
  0x470ac30411a408000000000400000000a22f0390901149a91b7bfd63e02bc00e6013b06020000036a001a1a1a0f0f055a7800000000000000030003030d0f78a06e648250036a,
  0x4709c30511a408002000000400000000a22f0390901149a91b7bfd63e020800b4013b06020000036b001a1a1a0f0f055a78fe0000000000000c0003030d0f968c6e786450036b,
  0x380983140004804000000000000000098af082009110be2cb43986200023001e004305040000036c000f77350b0b0046147f000000000000001001780b07372c3846422c036c,
  0x380983140004804000000000000000098af082009110be2cb4398620004b0032004305040000036c000f77350b0b0046147f000000000000001001780b07372c2e464236036d,
  0x380983140004804000000000000000098af082009110be2cb439862000960050004305040000036c000f77350b0b0046147f000000ef00ef001001780b07372c2946423b036e,
  0x380983140004804000000000000000098af082089118be2cb439c620005f004600ad05040000036f000f77350b0b0046147f0000000000000020023c0b074b3a637a5537036f,
  0x380983140004804000000000000000098af082089118be2cb439c620008c006e00ad05040000036f000f77350b0b0046147f0000000000000020023c0b074b3a457a5f4b0370,
  0x380983140004804000000000000000098af082089118be2cb439c620018600aa00ad05040000036f000f77350b0b0046147f000000ef00ef0020023c0b074b3a367a64550371,
  0x2046822500008042000000000000000c82e0000000119a00943b062800090014008208060000037200b4a6a60606004614fe000000000000080002781111624b342f2d360372,
  0x2046822500008042000000000000000c82e0000000119a00943b062800090014008208060000037200b4a6a60606004614fe000000000000080002781111624b342f2d360373,
  0x2046822500008042000000000000000c82e0000000119a00943b062800090014008208060000037200b4a6a60606004614fe000000000000080002781111624b342f2d360374,
  0x2046822500008042000000000000000c82e0000000119a00943b062800090014008208060000037200b4a6a60606004614fe000000000000080002781111624b342f2d360375,
  0x2046822500008042000000000000000c82e0000000119a00943b06280009001400f308060000037200b4a6a60f0f004614fe000000000000080002781111807d5c43414a0376,
  0x104c0280146824a00000000240000000a22c0a04800c99a42c613727103fc00be011e0102000003770021212102010346141f000000000000000c032d040a6e5f466e96640377,
  0x600c08e0550001248000000090000000882e1a40824b8dac0c6394633022800be011c030200000378001f1f1f0e010346141f00000000000000c0032d0f0b5591914b6e460378,
  0x322939130a0cf210000000000000000d42d810035880fbc0f4130e28064a003200a8060200000379009c9c9c08080323197f0000000000000014022d07107355147d55320379,
  0x40a000e970000800000000400000000c02d038080005baa4863f563200ce009600cf01020000037a00b6b6b60e040146147f0000000000000800022d110f696e506e6e4b037a,
  0x63b3c1d032800f218000000000000000c0af9b54811a9fbc1f69bcead023400a0011608020000037b002727270b0b05231400000000000000000c032d010d73416e5fa544037b,
  0x73a060d336a48fa12000000000000000c3af0110001819a25b5bbf62d0140009601a908020000037c0083838306060446147f0000009e009b000202ff11007e50327e3c67037c,
  0x800120010a000904000000000000000b62c8200a0040bb4086137a70051700fa00c401020000037d03adadad0c0c0523147f000000e200000008023c100a416e69468c46037d,
  0x192a2c014e25c01000000000000000082af0310800c99aa4f61bf66c04b000c800cf09020000037e034b4b4b02010046147f000000dd00000020024b0d0a50821eb44b5f037e,
  0x104000001d4130020000000000000000986c2b25a84009b5086514e301ce8041a00d607020000037f009f9f9f0a0a0046197f000000e900000020021904085f371ee67d4b037f,
  0x4400000c900000800000000000000000803c008080004ba808417462101f900dc010505020000038000636363040403460f7f00000000000000c0032d02005087795050530380,
  0x40001200102010034000000000000000902c0620a80009b00a61bfa600dae00d200cb07020000038103aeaeae0a060046147f0000000000000002024b0e0e5078645078500381,
  0x1c660021007a0002000000000000000c8ac0925880008a519459c66c0116006e013b090200000382009c9c9c0f0f054619ff0000000000000810030311056ea06e6ea0320382,
  0x5340800010a395030000000000000000806e0b21880008ad9f613c62424d500fa013b01020000038300b5b5b50a0a052328ff000000e90000003003030d086e696e9691500383],
  [0x8000300106010830000000000000000a22c0b10800408a40c79b727810cc03d4015b01020000038400bdbdbd0f0f050078ff000000000000030003030a0aa0b45a5a96640384,
  0x10400100150033820000000000000000802c2b559048a8af4c7f946b2270d01f4015b00020000038500bebebe0f0f050078ff000000000000000c030309045a965aa0b4640385,
  0x40803041f6020820000000c00000000a22c2bf49069b8af4c7b376b20f500438015f03020000038600bfbfbf0f0f050078ff0000000000000108032d020f64b47364b4690386,
  0x63b381c13084dfc1a00000000000000090af011084998ab01f49bce2c1324028a013206020000038700aaaaaa0f0f056478ff00000000000003000303100d82aa503ca0500387,
  0x10402000900020020000000000000000886c0a05890039e74863146300c8500fa00c4000200000388007d7d7d05050046147f0000000000000104029604096991146478460388,
  0x400463c216040fb02000000000000000802e001080588da00a5b37621011b008200cb050200000389007171710805008c147f0000000000000080023c01006036875e88410389,
  0x4408000497c000000000000400000000802c2a84904049ae4c6174632046600b4013b01020000038a00b8b8b80e0e0523287f000000fa0000000c032d020f5a787882915f038a,
  0x64040024301000081000000000000000803cd040a2420ba88c43547200195008c00df02020000038b005b5b5b030300460f7f000000f500000408032d0306500f91289641038b,
  0x44200144000002000000000000000a23c0200000409a00861312600312033400d901020000038c09d0d0d00c0c04460f7f0000000000000001023c0a0a878c1e828c2d038c,
  0x400400d102000002000000000000000803c00c0068049a90841d0a290022003c00a702040000038d06d8d8d80404004614bf0000005e00000200022d020c46625d46464b038d,
  0x400400d102000002000000000000000803c00c0068049a90841d0a290022003c00a709040000038d06d8d8d80404004614bf0000005e00000200022d020d46625d46464b038e,
  0x400400d102000002000000000000000803c00c0068049a90841d0a290022003c00a706040000038d06d8d8d80404004614bf0000005e00000200022d020746625d46464b038f,
  0x2d701bc039d000000000000000704c008016866382a000000000000000842c0845000019a40c4110ab000fa006e00aa00030000039003634833050500460f7f0000000000000008025a05054b37524b73550390,
  0x2d701bc039d000000000000000104c00001686200a2000000000000000842c0845000019a40c4110ab000fa005000aa05030000039003b5b5b5050500460f7f0000000000000008025a050541376e41754b0391,
  0x10000000000000000000000000000024010014a400806000000000000000943e000014800bb08a4133e200026001e0033040200000392092f3752050500460f7f000000970000004001ff001023194823381e0392,
  0x10000000000000000000000000003024010034a400806000000000000000943e004094800bb0aa4137fb000ff00460091040300000393062f3752050500460f7f0000009700000080027f001050284d46474b0393,
  0x3024010034a400806000000000000000943e004094800bb0aa4137fb0041a008c0091040300000393062f3752050500460f7f0000009700000080027f001050284d46474b0394,
  0x102bc0055032300000000000000043114180341109012000000000000000812e001880189ba01d59bc22c00d2004600da05020000039500cfcfcf060500460a7f00000000000000c0034b0d0c555f6e32553c0395,
  0x100000000000000000000000000020400080346204026000000000000000802c9e6210080ba80ce19266101900046003c08020000039609ca515105050046147f0000011e0000001001ff080e230a285a4b320396,
  0x1000000000000000000000000000204000803462040a6000000000000000802c9e6290088ba80ce19666102260078009e01020000039700ca515105050046147f0000011e00000020025a080e41194178644b0397,
  0x10000000000000000000000000000000101314e040002000000000000000902c0502200009a00841b32700063003c003c080200000398097551510505004614bf000002890000004001be0e0e4132412829260398,
  0x10000000000000000000000000004002101314e040002000000000000000d02d0502a00009a00841b727c00c7006e00b1010200000399007551510505004614bf0000028900000080024b110e64516d4b43490399,
  0x100000000000000000000000000020201300362440c42000000000000000903d010034801bb80a5930e21002a0028003a01020000039a099b653505050046147f000000d90000004001ff101028325a232328039a,
  0x100000000000000000000000000020201300362440c42000000000000000943d0100b4801bb80a5934e31014a006e009a01020000039b069b65a905050046147f000000d900000080025a1010414b733c3c41039b,
  0x100000000000000000000000000000400080101b33000000000000000000882c0a2d085809a74c7d1062000cb0028003c07020000039c09ce052a0a0a03460f7f000002220000001001ff0c051e1e14645028039c,
  0x100000000000000000000000000012400180101b33000000000000000000882c0a2d085809a74c7d10620044c0064008907020000039d06ce052a0a0a03460f7f000002220000002002780c052d2d23735f37039d,
  0x100000000000000000000000000012400180101b33020000000000000000892c0a2d885899a74c7d146300c5800aa00df07020000039e00ce052a0a0a03460f7f0000000002220030032d0c0541372d827850039e,
  0x100000000000000000000000000000001530300007400000000000000000842cc8052cc80bb6ea4130f2001a40046004103020000039f09df528f0b0b0046147f000001190000000101be1003322819325050039f,
  0x1000000000000000000000000000001015b0300017400000000000000000942cc805acc88bb6ee4134f200208006400af0302000003a006df528f0b0b0046147f0000000001190005024b10036441324b696903a0,
  0x10000000000000000000000000001188082075889026000000040000000088af634088410ba0dd631c624103c044200ba0202000003a1008b777707070546147f0000000000000200022d0f0b4b7d2d55695f03a1,
  0x1000000000000000000000000000724c1090b42223a20000000000000000902d0a44814a9bef4e7d376200154006400950603000003a203451f8201010046147f0000010200000020024b070950322d6e503c03a2,
  0x724c1090b42223a20000000000000000902d0a44814a9bef4e7d3762003d400aa00950603000003a203451f8201010046147f0000010200000020024b070950322d6e503c03a3,
  0x201201102004700000000240000000b23e0800824c1bac084537a210190009600ef0103000003a400d2d2d20f0f0346140000000000000000c0032d100a47677a435f4803a4,
  0x201201102004700000000240000000b23e0800824c1bac084537a210190009601200103000003a400d2d2d20f0f0346140000000000000000c0032d100a47998443914803a5,
  0x100811101f8830000000000400000000802e2a04800088a12c6194620014f007800db0405000003a600bcbcbc0f0f050078ff00000000000000030303040f553d7347643603a6,
  0x100811101f8830000000000400000000802e2a04800088a12c6194620014f007800db0405000003a600d3d3d30f0f050078ff00000000000000030303040f553d7347643603a7,
  0x100811101f8830000000000400000000802e2a04800088a12c61946200bea01f4010e0305000003a600d3d3d30f0f050078ff00000000000000030303040f5f515f79646c03a8,
  0x100811101f8830000000000400000000802e2a04800088a12c619462017d401c2013f0405000003a600d3d3d30f0f050078ff00000000000000030303040f5f5b557964d803a9,
  0x1440000108580020000000000000000c03c0b258a1009a519639c2280190001e009a050e000003aa00c5c5c50a0a034619ff0000005b00000410021e0205643c3c643c3c03aa,
  0x1440000108580020000000000000000c03c0b258a1009a519639c2280190001e009a050e000003aa00c5c5c50a0a034619ff0000005b00000410021e0205643c3c643c3c03ab,
  0x1440000108580020000000000000000c03c0b258a1009a519639c2280190001e009a050e000003aa00c5c5c50a0a034619ff0000005b00000410021e0205643c3c643c3c03ac,
  0x1440000108580020000000000000000c03c0b258a1009a519639c2280190001e009a050e000003aa00c5c5c50a0a034619ff0000005b00000410021e0205643c3c643c3c03ad,
  0x1440000108580020000000000000000c03c0b258a1009a519639c2280190001e009a050e000003aa00c5c5c50a0a034619ff0000005b00000410021e0205643c3c643c3c03ae,
  0x1440000108580020000000000000000c03c0b258a1009a519639c2280190001e009a050e000003aa00c5c5c50a0a034619ff0000005b00000410021e0205643c3c643c3c03af,
  0x1440000108580020000000000000000c03c0b258a1009a519639c2280003001e00af000e000003aa00c5c5c50a0a034619ff000000000000010402ff02053c64783c643c03b0,
  0x1440000108580020000000000000000c03c0b258a1009a519639c2280003001e00af000e000003aa00c5c5c50a0a034619ff000000000000010402ff02053c64783c643c03b1,
  0x1440000108580020000000000000000c03c0b258a1009a519639c2280003001e00af020e000003aa00c5c5c50a0a034619ff000000000000010402ff02053c64783c643c03b2,
  0x1440000108580020000000000000000c03c0b258a1009a519639c2280003001e00af030e000003aa00c5c5c50a0a034619ff000000000000010402ff02053c64783c643c03b3,
  0x1440000108580020000000000000000c03c0b258a1009a519639c2280003001e00af010e000003aa00c5c5c50a0a034619ff000000000000010402ff02053c64783c643c03b4,
  0x1440000108580020000000000000000c03c0b258a1009a519639c2280003001e00af010e000003aa00c5c5c50a0a034619ff000000000000010402ff02053c64783c643c03b5,
  0x1440000108580020000000000000000c03c0b258a1009a519639c2280003001e00af060e000003aa00c5c5c50a0a034619ff000000000000010402ff02053c64783c643c03b6,
  0x100000000000000000000000000010400000100220020000000000000000806c0a0010001bad886110621000a001400350502000003b7099fdd0805050046147f000000ed0000104001ff08042d235a1e370a03b7,
  0x100000000000000000000000000010400000100220020000000000000000806c0a0490001bada86114621029a004600950502000003b8069fdd0805050046147f000000ed000010080232080446326e3c642303b8,
  0x2d60247039c0000000000000000121b070100400002000000000000000d0ad515035180ba00bd99caa10007001400a70204000003b909d1d1d10b0b0046147f0000000000000800022d1107693260505a3703b9,
  0x2d60247039c0000000000000000121b070100400002000000000000000d0ad515035180ba00bd99caa1001c002800a70204000003b909d1d1d10b0b0046147f0000009600000800022d1107693260505a3703ba,
  0x2d60247039c0000000000000000121b070100400002000000000000000d0ad515035180ba00bd99caa1001c002800a70204000003b909d1d1d10b0b0046147f0000000000000800022d1107693260505a3703bb,
  0x6112108700030000000000000000c0e600388c1398001e4b1d20803250064010e0002000003bc00dcdcdc0f0f050078ff000000000000030003031108738241735f5003bc,
  0x2cf0055034400000000000000040004180341101012000000000000000812e0018001819a00c5938220003c002800700208000003bd061f09090f0f00460a00000000ec0000008002be0c0c32325a28372303bd,
  0x2cf0055034400000000000000040004180341101012000000000000000812e0018001819a00c5938220003c002800700208000003bd061f09090f0f00460a00000000ec0000008002be0c0c32325a28372303be,
  0x2cf0055034400000000000000040004180341101012000000000000000812e0018001819a00c5938220003c002800700208000003bd061f09090f0f00460a00000000ec0000008002be0c0c32325a28372303bf,
  0x2cf0055034400000000000000040004180341101012000000000000000812e0018001819a00c5938220003c002800700208000003bd061f09090f0f00460a00000000ec0000008002be0c0c32325a28372303c0,
  0x2cf0055034400000000000000040004180341101012000000000000000812e0018001819a00c5938220003c002800700208000003bd061f09090f0f00460a00000000ec0000008002be0c0c32325a28372303c1,
  0x2cf0055034400000000000000040004180341101012000000000000000812e0018001819a00c5938220003c002800700208000003bd061f09090f0f00460a00000000ec0000008002be0c0c32325a28372303c2,
  0x2cf0055034400000000000000040004180341101012000000000000000812e0018001819a00c5938220003c002800700208000003bd061f09090f0f00460a00000000ec0000008002be0c0c32325a28372303c3,
  0x1004010014841782c000000000000000803c020020081bb5086110a310258008c00920502000003c4065badc6050500460f7f0000009700000008027f00003c372d3c6e5803c4,
  0x40000100101300011000000000000000816c9018823109a0085b7c22005c3010400e10102000003c5001a1a1a030300460f7f0000000000000300032d0c064b912b5a464d03c5,
  0x44000820700800059000000000000000882e9040a00b0da80cc3946200244009600a80902000003c6037e666607070046147f000000ef00000008024b0b0b5a502d5a694603c6,
  0x40204000b50040402000000000000000802ca00033082bf2e8c110b22032a00d200a80402000003c70f0cd4d40e01004614fe000000e400000080022d09033c6f753c404403c7,
  0x2d802b3039e000000000000000504c03c0174a07a28000000400000000806cba41b04a99ad4c6194ab3081b00f0010e0702000003c8008e2bab0e0e0546287f0000000001460030032d010f6964557d6e4b03c8,
  0x2d402c9039900000000000000003580100b303a003000000000000000090ec1a75d4580aac1d631c22c11f8017c01320204000003c900e8e8e80f0f050078ff000000000000000c03ff080d6d714d7f9d6103c9,
  0x2d502ca039a00000000000000003580100b303a003000000000000000090ec1a75d4580aac1d631c22c0dac01a401320104000003c900e8e8e80f0f050078ff000000000000030003ff070d7f9d4d6d716103ca,
  0x2d302d2039b00000000000000003580100b303a003000000000000000090ec1a75d4580aac1d631c22c08fc02ee01530204000003c900e9e9e90f0f050078ff000000000000014403ff0f0d61a78161a76103cb,
  0x48030220102208011000000000000000a22cd400000409a018c1b3220087f0136009f0302000003cc060bc7c7030200460f7f000000f3000008000264060a84322a5c464403cc,
  0x46101149580126000000000000000813e8038a0180ba01859102210082003c00980702000003cd09051fa0060500460a7f000003710000000802b4080c4928603f624103cd,
  0x783e004100400013000000000000000c83d410002010ba819c3d86280014002800a20202000003ce06af137606030046147f0000005e00000080024b1106465f7c3c373c03ce,
  0x10440000168620022000000000000000842c0805000019a4084110a30005c003200380502000003cf09141414050500460f7f000000000000000401be0505281e3c28412d03cf]]

end Verif.Data
