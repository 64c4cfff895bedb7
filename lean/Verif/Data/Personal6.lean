/-
Generated by tools/gen_personal.py from resources/bin/personal.
-/
namespace Verif.Data

/-- resources/bin/personal/personal_xy, 799 pieces of 64 bytes -/
def personal_xy : List Nat := List.flatten [
  [0xff0000000000000000000000000000000000000000,
  0x520000000100000098a2e0042000119a08843987200045004600400301000000000022414107010346141f0000000000000100012d030b41412d31312d0001,
  0x100640000000100000098a2e0042000119a088439872000820064008e0301000000000022414107010346141f0000000000000500022d030b50503c3f3e3c0002,
  0x200940000000900000098a2e0242800119a088639c73003e800c800ec0302000002f80022414107010346141f0000000000000600032d030b6464505352500003,
  0x4b000000020000009a22c0840114839ee4cc1106230055003c003e000100000000005e42420e010346141f0000000000000040012d0909323c412b34270004,
  0x1006a000000020000009a22c0840114839ee4cc11062300be006e008e000100000000005e42420e010346141f0000000000000140022d09094150503a403a0005,
  0x1008700000012000000ba22c2a409168f9ee4ce354633038900aa00f00003000102f9005e42420e010346141f0000000000000300032d0209556d644e544e0006,
  0x4300000004000001ca22c0020000c09a40cc133260005a0032003f010100000000002c434302010346141f0000000000000010012d0a0a40322b41302c0007,
  0x1006400000004000001ca22c0020000c09a40cc13326000e10064008e010100000000002c434302010346141f0000000000000410022d0a0a50413a503f3b0008,
  0x1008300000024000001cb26c2a20800c89a40ce537270035700a000ef010200030309002c434302010346141f0000000000000c00032d0a0a69554e64534f0009,
  0x320000000000000000000000000000000000000000001d001e002703010000000000321313030300460f7f000000000000000101ff060614142d231e2d000a,
  0x520000000000000000000000000000000000000000006300460048030100000000003d3d3d030300460f7f00000000000000200278060619191e371432000b,
  0x1006a000000000000000803d418282010ba80b43f47200140006e00b2080100000000006e0e0e030300460f7f000000de00000600032d0206505a46322d3c000c,
  0x3200000000000000000000000000000000000000000020001e002705010000000000321313030300460f7f000000000000004001ff03061414321e2328000d,
  0x4b00000000000000000000000000000000000000000064003c0048020100000000003d3d3d030300460f7f00000000000000200278030619192332192d000e,
  0x10064000000000000001823cd0c2a2020ba88c43547200127006400b202010000000000614444030300460f7f000000f500000408032d0306502d4b285a41000f,
  0x32000000000000002803c000000004ba80841706200012001e00320501000000005a914d33040403460f7f000000000000004001ff0200232338282d280010,
  0x1006a000000000000002803c000000004ba8084170620012c006e007a05010000000000914d33040403460f7f000000000000008002780200323247373c3f0011,
  0x1007e000000000000002803c000080004ba8084174620018b009600d805010000000000914d33040403460f7f00000000000000c0032d02004646654b50530012,
  0x32000000000000001833e001040100ba00ad933e200023001e003306010000000078373e32050500460f7f000000000000004001ff000023194823381e0013,
  0x52000000000000009833e0050c0100ba00ad937e3000b9004600910501000000005a373e32050500460f7f0000000000000080027f00004632613c51370014,
  0x32000000000000002803c000000025ba80841706200014001e00340501000000005a613333040400460f7f000000000000004001ff02001f1f461e3c280015,
  0x1006f000000000000002803c000080025ba8084174620017c0078009b0501000000003c613333040400460f7f000000f400000080025a02003d3d64415a410016,
  0x20094000000000000008902cca0020000bb4a8e130720004500c8003a060100000000787f3d160e050046147f000000000000000401ff03033628372c3c230017,
  0x200cc000000000000008902cea00a0000bb4a8e134720028a015e00990601000000003c7f3d160e050046147f0000000000000008025a03034f415045553c0018,
  0x3b000000000000008832e001a001819a00cd938220003c00280070020100000000001f0909060500460a7f000000ec0000008002be0c0c32325a2837230019,
  0x10058000000000000008832e001a80189ba00cd93c220012c005000da020100000000001f0909060500460a7f00000000000000c0034b0c0c505a6e375a3c001a,
  0x4b000000000000009822c9a6010080bad0ce1906210078003c003c0201000000005a92080805050046147f000000d90000001001ff04041e1428554b32001b,
  0x10064000000000000009822c9a6490088bad0ce19462101270064009e0201000000003c92080805050046147f000000d900000020025a0404372d416e644b001c,
  0x3b000000000000009822c800010001ba888d9337210046002800370101000000005a374f260501034614fe000000000000000101eb0303282829342f37001d,
  0x10058000000000000009822c800010001ba888d93372100c8005000800101000000003c374f260f0f034614fe000000000000000202780303373738433e46001e,
  0x1007400000000000000da22caa0490c89bbfeefd37f310258008200e3010100000000007d4f260f0f034614fe0000000000000003032d0403554b4c575c5a001f,
  0x43000000000000009822c800010001ba088d933721005a003200370601000000005a374f26050103461400000000000000000401eb030328283228392e0020,
  0x1005e000000000000009822c800010001ba088d93372100c3005a00800601000000003c374f2605010346140000000000000000080278030337374139483d0021,
  0x1007900000000000000da22caa0490c89bb7eefd37f31026c008c00e3060100000000007d4f26050103461400000000000000000c032d04034b55554d66510022,
  0x4b000000000000008e22f0112405819a25fdbbb62c004b003c0071490100000000788462380606048c0abf000000510000000202961111413c23302d460023,
  0x10074000000000000008e22f0112c05899a25fdbbf62c0190008200d9490100000000006d62380606048c0abf0000005100000003031911115a5f3c49465f0024,
  0x4b000000000000000902c0100214129e248c1906300063003c003c050100000000004612120505004614bf000000000000004001be09094132412829260025,
  0x1006a000000000000000902d0100a14129e248c39463c00c7006e00b1020100000000004612120505004614bf0000000000000440024b09096451644b4c490026,
  0x43000000000000008e12f0132405819a25fdbbb62000370032005f4901000000007884ac38060604460abf000000000000000202aa1100192d14142d730027,
  0x10064000000000000008e12f0132c05899a25fdbbf6200078006400c44901000000000077ac38060604460abf00000000000000030332110032552d2d468c0028,
  0x10058000000000000002803c000022004bb88a4170f20004b005000310601000000005a972727040400460f7f000000000000004001ff0203281e37232d280029,
  0x10083000000000000002803c0000a2004bb88a4174f20022600a0009f0601000000003c972727040400460f7f0000000000000080025a02034b415a46504b002a,
  0x43000000000000001c82e4042000109a08843107200036003200400101000000005a32222207070346147f000000000000010001ff030b414b1e37322d002b,
  0x10058000000000000001c82e4042000909a088431072000560050008a0101000000003c01222207070346147f00000000000002000278030b4b552846413c002c,
  0x1006f000000000000001c82e4042800909a088439472000ba007800dd000100000000001b222207070346147f0000000000000300032d030b5a6e3255504b002d,
  0x320000000000000018a2e10c200030ba88cc3187210036001e00390001000000007806571b07030046147f000000570056000401be0b06372d19374623002e,
  0x100640000000000000018a2e10c280030ba88cc31c72101270064008e0001000000005a06571b07030046147f0000005700560018024b0b06503c1e505f3c002f,
  0x10064000000000000000802c408200000ba0894310720012c0064003d06010000000000326e0e03030046147f000000000000040001be030637282d32373c0030,
  0x1007e000000000000000803c408282010ba8894354720007d0096009e06010000000000936e1303030046147f0000012700000140024b03064b5a5a3c41460031,
  0x28000000000000001822c0a0010001bad88e110621000800140035050100000000789f470805050046147f000000ed0000104001ff04042d235f19370a0032,
  0x52000000000000001822c0a0490001bada8e114621014d0046008e050100000000009f470805050046147f000000ed00001080023204044632783250230033,
  0x3b000000000000001903d010270001bb80ad930e21002a0028003a020100000000007f653505050046147f000000d90000004001ff000028285a232d280034,
  0x10064000000000000001903d0102f4001bb80ad934e3101400064009a020100000000007f650705050046147f000000d900000080025a00004141733c46410035,
  0x1005800000000000001ca22c0102100c09a80dc13b26d00c4005000400201000000005a210d0605020046147f000000000000010001be0a0a3241373034320036,
  0x1008700000000000001ca22c0102900c8da80dc13f26d02fe00aa00af0101000000003c210d0605020046147f0000000000000200024b0a0a505f554e52500037,
  0x43000000000000008a23c8a006208afac0cfd30ea101180032003d0501000000000080534805050046147f000000000000000401be01012d23462350280038,
  0x10064000000000000008a23c8a04e208afac0cfd34ea101400064009f0501000000000080534805050046147f0000000000000008024b0101463c5f3c69410039,
  0x52000000000000008872c000041402bea48c19063000be00460046050100000000009a121605050546143f000000000000000401be090932463c2d4637003a,
  0x20090000000000000008872c0200c1402bea48c394630060e00be00c2050100000000009a121605050546143f0000000000000008024b090950645f506e5a003b,
  0x4b000000000000014802c000000040ba009c133260007c003c003c4101000000005a21060b02020346147f000000000000004001ff0a0a28285a283228003c,
  0x1006400000000000001ca22c0200000c0ba00de13326000c8006400874101000000003c21060b02020346147f000000dd0000008002780a0a32325a414141003d,
  0x1007400000000000001ca22c8a00a00c8fa40de1372e0021c008200e64101000000000021060b02020346147f000000dd00000030032d010a5a46465f5f5a003e,
  0x1005e000000000000000c0af011204190bb01b41b8e2c00c3005a003e0501000000007862271c08080346143f000000f80000010001c80d0d37695a0f1419003f,
  0x10074000000000000000c0af011204190bb01b41b8e2c02350082008c4501000000000062271c08080346143f000000f80000020002640d0d4678691e23280040,
  0x1007e000000000000000c0af011284198bb01b41bce2c01e0009600e105020004030d0062271c08080346143f000000f80000030003320d0d5f87782d32370041,
  0x10058000000000000008a22c8a0060488fa64ce5386a000c30050003d0701000000005a50633e08080346143f000000000000000401b401012323233250460042,
  0x1007e000000000000008a22c8a0060488fa64ce5386a002c10096008e4701000000003c50633e08080346143f0000000000000008025a01013c322d4664500043,
  0x10083000000000000008a22c8a04e0488fa64ce53c6a0051400a000e34701000000000050633e08080346143f000000000000000c032d010155413750825a0044,
  0x52000000000000001882e404200010ba098431072000280046003c0301000000005a52222207070346147f000000000000000401ff030b1e4628234b320045,
  0x10064000000000000001882e404200010ba09843107200040006400890301000000003c52222207070346147f00000000000000080278030b2d5537325a410046,
  0x10087000000000000001882e404280010ba0984314720009b00aa00dd0301000000000052222207070346147f000000000000000c032d030b4664464169500047,
  0x1005e000000000000015c02cc04020040ba0a841b336001c7005a0043010100000000002c401d09090546147f000000f50000040001be030a6432462328280048,
  0x10083000000000000015c02cc040a0040ba0a841b7360022600a000b4010100000000002c401d09090546147f000000f500000800023c030a7850644146500049,
  0x3b000000000000008aa2c0a25084809a74ce51062000c80028003c0501000000005a0805450a0a03460f7f000000e50000001001ff04051e1e14645028004a,
  0x10064000000000000008aa2c0a25084809a74ce510620041a006400890501000000003c0805450a0a03460f7f000000e500000020027804052d2d23735f37004b,
  0x10079000000000000008aa2c0a25884889a74ce5146300bb8008c00df050100000000000805450a0a03460f7f000000e500000030032d040541372d827850004c,
  0x10064000000000000008812c0000014039e2484310620012c006400520201000000007831123205050046147f000000000000004001be090941415a375532004d,
  0x10087000000000000008812c8000814039e248431462003b600aa00af0201000000000031123205050046147f0000000000000080023c0909505069466441004e,
  0x1006f00000000000000c80af0312004419a24be1bb66c01680078003f0901000000003c90140c02010046147f000001170000000101be0d0a28280f41415a004f,
  0x1008300000000000000c82af0312804c99aa4fe1bf66c031100a000ac0901000000003c90140c02010046147f000000dd00000020024b0d0a50641e6e4b5f0050,
  0x32000000000000000816c013a081008a0185938620003c001e00410701000000005a94052a0a0a004614ff000000e90000010001be080c375f2d4623190051,
  0x10064000000000000000816c013a881008a018593c6200258006400a30701000000003c94052a0a0a004614ff000000e900000200023c080c4678465f3c320052,
  0x10058000000000000003803c814042024ba808415062000960050007b0501000000007880273305040046147f0000010300000004022d02003e3a3c3741340053,
  0x10079000000000000002802c000000005ba80841506200188008c003e0501000000005a4d303204040046147f000000f40000000401be020023234b2d55230054,
  0x2008c000000000000002802c0000a0005bb8084154e20035400b400a10501000000003c4d303204040046147f000000f400000008022d02003c3c64466e3c0055,
  0x1006a000000000000014802c000000081ba00841b32600384006e004108010000000000735d2f05020046147f000000000000040001be0a0a462d2d372d410056,
  0x10087000000000000014802c040080081ba00841b726004b000aa00a608010000000000735d2f05020046147f0000000000000800024b0e0a5f464650465a0057,
  0x1005e000000000000008a02cc80028480bb6ead930f20012c005a00410601000000003c8f3c010b0b0046147f000001190000000101be03033228193250500058,
  0x1006f000000000000008b22cc800a8488bb6eed934f20012c007800af0601000000003c8f3c010b0b0046147f0000000001190005024b03036441324b69690059,
  0x32000000000000004802c0000280009a00841332600028001e003d060100000000008e5c4b09090546147f000000590058001001be0a0a192d2864411e005a,
  0x1007e000000000000004802c8400a80009b0084137260052d009600b8060100000000008e5c4b09090546147f0000005900580020023c0e0a2d5546b45f32005b,
  0x10074000000000000000d0ad41002d010bb08b4930f2000010082003e060100000000781a1a1a0b0b0346147f000000000000010001be03072364501e231e005c,
  0x10083000000000000000d0adc1003d090bb08b4930f20000100a0008e0601000000005a1a1a1a0b0b0346147f0000000000000200025a030737735f2d322d005d,
  0x1007e000000000000008f2adc100bd098bb08f5934f200195009600e10602000502eb001a1a1a0b0b0346147f0000000000000300032d03074b826e3c413c005e,
  0x201590000000000000088a6c2b25280009b508e510e3008340370004d0701000000003c8505450a0a0046197f0000000000000010012d04052d1e46a02d23005f,
  0x10064000000000000000e0af011200080fb01f41b8e2c0144006400420201000000005a276c0f08080046147f000000000000040001be0d0d5a2b2a2d303c0060,
  0x10083000000000000000e0af011280088fb01f41bce2c02f400a000a90201000000003c276c0f08080046147f0000000000000800024b0d0d7349434649550061,
  0x3b00000000000000d822c1840000e0ba40cc1332610041002800410001000000005a7d4b3409090046147f000000000000000401e10a0a1919325a691e0062,
  0x1007400000000000000d822c1840808e0ba40cc1372610258008200a64001000000003c7d4b3409090046147f0000000000000008023c0a0a32324b7382370063],
  [0x43000000000000000812c003a08100ab0085938a20006800320042000100000000786a092b0a0a004614ff000000000000004001be0c0c373764321e280064,
  0x1006f000000000000000812c003a88100ab008593ca20029a007800a8000100000000006a092b0a0a004614ff0000000000000080023c0c0c50508c46323c0065,
  0x3b00000000000000888af414208010ba0994318620001900280041090100000000788b222207070546147f0000000000000010015a0d0b2d3c2850283c0066,
  0x2009400000000000000888af414288010ba099431c62404b000c800b6020100000000008b222207070546147f0000000000000200022d0d0b417d37555f5f0067,
  0x3b000000000000008a22c0a40404a1baf4ce5136200041002800400501000000005a041f4501010046147f000001020000001001be04043228235f32320068,
  0x10064000000000000008a22c0a44c04a9baf4ce51762001c2006400950501000000003c041f4501010046147f0000010200000020024b040450322d6e503c0069,
  0x1007e000000000000008a22c8a0440088fa40c61306a001f20096009f050100000000005478070808004619000000000000000008022d01016e2357357832006a,
  0x10079000000000000008a22c0a0440088fa40c61306a001f6008c009f050100000000002759330808004619000000000000000800022d01016e234c4f6932006b,
  0x1006f00000000000000da22d2b40c0480ba74efb37620028f0078004d0901000000003c0d0c1401010046147f0000011700000002012d00004b3c1e4b375a006c,
  0x4b000000000000000902c402229400bb2ca5930f20000a003c00440601000000005a1a1a1a0b0b0046147f000000e40000001001be03032d3c235f4128006d,
  0x1006f000000000000000902c4022a9400bb2ca5934f20005f007800ac0601000000003c1a1a1a0b0b0046147f000000e400000020023c030346553c785a41006e,
  0x10064000000000000008822c8a4520400ba748f933630047e006400450701000000005a78451f05010546147f0000000000000010017805041e1e195f5550006f,
  0x2009000000000000000da22caa45b0488ba74cfd3763004b000be00aa0701000000003c78451f05010546147f0000000000000008023c05042d2d287882690070,
  0x1006a000000000000008e32f0b12c05819a74f7bbf668015a006e018b0901000000005a83201e0606048c28fe000000e701000002021e00006923320505fa0071,
  0x10064000000000000001822e414280010ba0984314620015e006400570101000000005a90662207070046147f0000000000000010012d0b0b28643c7337410072,
  0x2009d00000000000000da22c0a00d0488baf4efbb7670032000dc00ac05020006030a962771300101004614fe0000000000000002022d000050285a505f690073,
  0x3b000000000000014806c0000000409a008413326000500028003b010100000000000661210e020046147f000000eb0000010001e10a0a19463c46281e0074,
  0x1006f000000000000014806c0000800409a008413726000fa0078009a010100000000000661260e020046147f000000eb00000110024b0a0a2d5f555f41370075,
  0x4b000000000000014802c8000000409a00841332600096003c00400001000000005a1f29210c0c0046147f000000000000000401e10a0a32233f3c432d0076,
  0x10074000000000000014802c8000800409a008413726001860082009e0001000000003c1f29210c0c0046147f0000000000000008023c0a0a504144415c500077,
  0x10058000000000000014c06c0132000408a019593b26001590050004445010000000000941e230909054614ff0000005b005a004001e10a0a374655372d1e0078,
  0x1006a000000000000014c0ef0132800408a019593f2640320006e00b606010000000000941e230909054614ff0000005b005a0080023c0d0a556473554b3c0079,
  0x10074000000000000000e0af4112a0198bb81f5bbce2c0221008200a10901000000005a656f2b08080046197f0000000000000800022d110d78645a412d28007a,
  0x1007e000000000000001823c10c080024ba80c41fc6200230009600640301000000000050654403030046197f0000000000000004012d0206503769506e46007b,
  0x10079000000000000000a0af0502a0099bb01f413fa6c0196008c009f00010000000000576c0c0808004619fe0000000000000200022d0d0e5f735f233241007c,
  0x1006a000000000000008a32c001a80188fa00d593c220012c006e00ac4201000000007848090908080046193f0000000000000080022d0c0c555f69395341007d,
  0x10074000000000000008a22c00008148afe24d411462001bd008200ad0001000000005a48313108080046193f0000000000000200022d090955645d395f41007e,
  0x1007e000000000000009822c1ac4800a8ba40ce5346a00226009600af0502000703040099683403030546197f0000000000000008022d0606463755647d41007f,
  0x1007900000000000000c832c0a04e04009a7487b376200374008c00ac0501000000005a7d53160505054614000000000000000044022d000046286e5f644b0080,
  0x1005e00000000000000000000000000000000000000000064005a00280001000000005a9b21210e0c0546057f000000000000004001ff0a0a140f50370a140081,
  0x2012300000000000001c922c2214a04409b3487937a70092e028a00bd01020008030b3c9916160e0c0546057f0000000000000008022d020a643c514f7d5f0082,
  0x200a900000000000001c822d0600800019a00959b7270089800fa00bb0101000000003c5d4b0b02010546287f000000f300f30002022d0e0a5f553c5055820083,
  0x3200000000000000000000000000000000000000000028001e00650601000000005a9607070d0d004614ff0000010101120001022300003030303030300084,
  0x32000000000000000802c0000400019a00ac1306200041001e0041050100000000006b5b3205050046231f0000000000000400012d0000412d373237370085,
  0x1006400000000000001c822c0000c00419a00ac1376700122006400b8010100000000005d0b0b05050046231f0000000000000002022d0a0a5f6e413c41820086,
  0x10058000000000000008832c001ac01019a00ad93c63000f5005000b8020100000000005f0a0a05050046231f0000000000000080022d0c0c5f6e823c41410087,
  0x1005e000000000000008822c0000c14039e24ac13463000fa005a00b8000100000000003e121205050046231f0000000000000008022d09096e5f413c82410088,
  0x1005800000000000000080ad011280100aa80b5b37624016d0050004f090100000000009458240a0a004614ff0000000000000100012d00004b5528463c410089,
  0x3b000000000000014822c082100040ba5084533260004b0028004701010000000000854b21090200461e1f0000000000000010012d0a05375a23642823008a,
  0x10064000000000000014822c082580040ba5084537260015e006400ad01010000000000854b21090200461e1f0000000000000020022d0a054673377d3c46008b,
  0x43000000000000014822c080100040ba508c53326100730032004705010000000000850421090200461e1f0000000000000010012d0a052d37375a501e008c,
  0x100740000000000000158a2c184580040bad0cc5372610195008200ad05010000000000850421090200461e1f0000000000000008022d0a0546415069733c008d,
  0x2008c00000000000000a822c0a05a0604bbf486574e33024e00b400b4060200090305007f2e4504040546231f0000000000000080022d02054b3c82416950008e,
  0x2009900000000000000ca32c0a00c04889a74f7f3762011f800d200bd04010000000000522f1101010546281f000000ea00ea0002021900006e411e416ea0008f,
  0x10087000000000000002823c0400802048a9184177670022a00aa010501010000000000512e2e0f0f052350ff0000000000000c000303020e7d5f5564555a0090,
  0x10083000000000000002833c001a803048a908597c630020e00a0010502010000000000092e2e0f0f052350ff00000000000003000303020c5a7d64555a5a0091,
  0x20094000000000000002823c0000816068eb4843f4630025800c8010502010000000000312e2e0f0f052350ff000000000000030003030209557d5a5a645a0092,
  0x2008c000000400000014802c2010004009a24859bf660002100b4003c010100000000783f3d3d0e020523287f000000eb00000004012d0f0f3232322d40290093,
  0x20032000000400000014802c2010004009a24859bf66000a5019000930101000000005a3f3d3d0e020523287f000000eb00000008022d0f0f46464641543d0094,
  0x2009d00000040000001fa22c2a148068c9af4c79ff673083400dc010e050100000000008827270e020523287f000000eb0000000c032d020f6464505f865b0095,
  0x20094000000000000008a2af8b1685598cbf5f7bbfeec04c400c801320603000a02fb007f2e2e0f0f050078ff000000000000030003030d0d5a9a825a6e6a0096,
  0x3b00000000000001ffffffffffffffffffffffffff00280028010e090100000000001c1c1c0f0f036478ff0000009d009d0003032d0d0d6464646464640097,
  0x1005e000000010000001882e0042000119a01843986200040005a00400301000000000066414107010346141f0000000000000400012d0b0b41312d41312d0098,
  0x1006f0000000100000098a2e0042000119a0184398620009e0078008e0301000000000066414107010346141f0000000000000410022d0b0b503f3c503e3c0099,
  0x2008c0000000900000098a2e2242800119a018639c62003ed00b400ec0301000000000066414107010346141f0000000000000810032d0b0b645350645250009a,
  0x43000000020000001892c0000014029ea48c110620004f0032003e0201000000000012424205050346141f0000000000000040012d0909323c412b3427009b,
  0x1005e0000000200000098b2c0000014029ea4cc11063000be005a008e0201000000000012424205050346141f0000000000000140022d09094150503a403a009c,
  0x10087000000120000009ab2c0a209148a9ee4ce314630031b00aa00f00201000000000012424205050346141f0000000000000300032d0909556d644e544e009d,
  0x4b000000040000015a02c0840100c09ac0cc133263005f003c003f010100000000007d434302010346141f0000000000000004012d0a0a302c2b404132009e,
  0x1006a00000004000001da22c0840100c09ac0cc13327300fa006e008e410100000000007d434302010346141f0000000000000014022d0a0a3f3b3a505041009f,
  0x200a100000024000001da22c2a40900c89ac0ce137273037800e600ef010100000000007d434302010346141f0000000000000018032d0a0a534f4e64695500a0,
  0x10058000000000000005a03e000050181ba04ecb31621003c0050002b05010000000078773332050500460f7f000000000000000401ff00002d2314222e2300a1,
  0x2008c00000000000000da23e0000d0189ba04edb37621014500b400910501000000005a773332050500460f7f0000000000000080025a0000372d5a404c5500a2,
  0x52000000000000002802d010000005ba81b417062000d4004600340501000000005a6e330f040400460f7f000000000000000101ff02003824321e1e3c00a3,
  0x10083000000000000002802d010080005ba81b4174620019800a0009b0501000000003c6e330f040400460f7f0000000000000002025a0200604c4632326400a4,
  0x10064000000000000000a03c40c202080ba81cc3d8620006c00640035000100000000009b3044030304460f7f000000000000040001ff02065028371e142800a5,
  0x10079000000000000008a23c40c282088ba81cc3dc6200164008c008900010000000000593044030304460f7f0000000000000800025a02066e375532233700a6,
  0x43000000000000000802cd08200000ba089c31072100550032003203010000000000610f44030304460f7f000000000000000401ff030628281e283c2800a7,
  0x1006a000000000000000802cd08280000ba089c314721014f006e008900010000000000610f44030304460f7f0000000000000008025a03063c3c28465a4600a8,
  0x2008c000000000000002903c1000a2004bb88a4174f2002ee00b400f106010000000000972727040400460f7f00000000000000c0035a0203504682505a5500a9,
  0x43000000000000014c12c001a001409a0085933260007800320042010100000000000b230a0c0c0546147f000000e30000000101be0c0a38384326264b00aa,
  0x1006f000000000000014c12c001a801409a008593726000e1007800a1010100000000000b230a0c0c0546147f000000e300000002024b0c0a4c4c433a3a7d00ab,
  0x32000000000000000812e001a001819a00859382200014001e0029020100000000001f09090f0f00460a7f000000000000004001be0c0c23233c0f281400ac,
  0x32000000000000000802f0112004819a25bc3b8624001e001e002c490100000000008462380f0f048c0abf000000510000040001961111372d0f1c193200ad,
  0x32000000000000000812f0112004819a25bc3b8620000a001e002a4901000000000084ac380f0f04460abf000000000000000101aa110014280f0f1e5a00ae,
  0x32000000000000000c22f0112004819a25b43b8624000f001e0031080100000000006920370f0f04460a1f000000000000040001be111141281441142300af,
  0x4b000000000000002c22f0112c04859aa5f43fc6240020003c008e08010000000000692037060404460a1f0000000000000800024b021169502855283700b0,
  0x28000000000000000c0bf011200004ba81b437862c001400140040030100000000009c301c04040046147f000000000000010001be020d2d46462d322800b1,
  0x1007e000000000000002c0bf011280004ba81b437c62c0096009600a5030100000000009c301c04040046147f0000000000000140024b020d465f5f464b4100b2,
  0x4b000000000000000812c0012001019a00859b8220004e003c00380801000000003c39090905010346147f000000000000010001eb0c0c2d412328283700b3,
  0x10058000000000000008a32c001a001819a00c59b82200085005000800901000000000039090905010346147f000000000000020002780c0c3c502d37374600b4,
  0x10079000000000000008a32c021a801899a00c59bc2200267008c00e60202000c02f70039090905010346147f0000000000000300032d0c0c5a7337554b5a00b5,
  0x3b000000000000001c82e4042800909a0884394720003a002800dd0301000000000083222207070346147f0000000000000c00032d0b0b645a325f504b00b6,
  0x3b00000000000001ca22e0000000c09a00cc13b2600055002800580101000000003c9d252f060204460a7f000000000000000202be110a32142832144600b7,
  0x1005800000000000001ca22e0200800c89a00cc13f260011d005000bd010100000000009d252f060204460a7f0000000000000003034b110a503c3250326400b8,
  0x1006f000000000000008aa2c0b0508080bb50ce510e28017c00780090050100000000009b45050a0a0046147f000000000000002002410505411e1e73644600b9,
  0x1006a00000000000001ca22c0200a00c9ba00de1372600153006e00e14301000000000002060b02020346147f000000dd00000c00032d0a0a645a464b4b5a00ba,
  0x3b000000000000000c03e4142020109a81843106200005002800320901000000005a97662207060346147f000000000000040001ff020b37233228232300bb,
  0x4b000000000000000c03e4142020109a8184310620000a003c00770301000000005a97662207060346147f00000000000000800278020b412d50322d3700bc,
  0x10058000000000000000c03e4142820109a8184314620001e005000cf0101000000007897662207060346147f00000000000000c0032d020b5f376e46374b00bd,
  0x10058000000000000009a23f001072080fa80edb30e21007300500048060100000000005c353205050446147f0000000000000040012d000037285537463700be,
  0x32000000000000001882e0042000109a08843986200012001e00240201000000005a305e2207070346147f000000000000010001eb0b0b1e1e1e1e1e1e00bf,
  0x10058000000000000001882e0042800109a088439c62000550050009502010000000000305e2207070346147f000000000000020002780b0b55691e374b4b00c0,
  0x1006f000000000000000803d000200004ba80b4350620017c0078004e00010000000078770e0303030046147f0000010900000040014b02062d4b5f2d414100c1,
  0x3b000000000000014822c4202000409a1a8e1b326000550028002a010100000000786d0b0605020046147f000000000000000101ff040a19190f2d2d3700c2,
  0x1007900000000000001ca22c4a06800c8ba5ace1b726002ee008c00970101000000003c6d0b0605020046147f0000000000000002025a040a41412355555f00c3,
  0x1005e000000000000001c0af0102c00019a01bc13c62c0109005a00b8060100000000009c1c1c05050046231f0000000000000200022d0d0d5f826e3c414100c4,
  0x10064000000000000001942d0102e00019b00bc134e20010e006400b804010000000000271c1c05050023231f0000000000000800022d1010823c416e415f00c5,
  0x43000000000000002942d011064804bb80b4170e28001500320051040100000000789e690f04040323147f0000000000000040011e02102a555b2a553c00c6,
  0x2009400000000000000ca2af231280cc99a24fe1bf66c031b00c800ac0901000000000090140c02010046147f000000dd00000c0002460d0a6e641e504b5f00c7],
  [0x52000000000000000d0ad011225101bb80b5930e28000a00460057070100000000781a1a1a0b0b0423197f0000000000000400012d07075555553c3c3c00c8,
  0x430000000000000000000000000000000000000200003200320076441c000d0000001a1a1a0f0f004628ff000000000000010402e10d0d30483030483000c9,
  0x100740000000000000000000000000000000000080000011d0082008e0101000000003c8c17170b0b0046147f0000000000000002022d0d0d3a21213a21be00ca,
  0x1007e000000000000008c2af031240111ba01b793862c019f0096009f0201000000003c9d302705050046147f0000000000000200023c0d00415a5541504600cb,
  0x4b000000000000008822c0aa0280009a518e3187200048003c003a070100000000008e050503030046147f000000000000001001be060623230f5a413200cc,
  0x1006f000000000000008826c0aa9a80009a518e31c72004ea007800a3060100000000008e050503030046147f0000000000000020024b08063c3c288c5a4b00cd,
  0x1007e000000000000008832d8b3040500ba64afb73628008c00960091020100000000009b322005050046147f000000000000000102be000041412d46466400ce,
  0x1006a000000000000009923c9ac5220a4bbd8ce170f210288006e00560601000000000011083403030346147f0000000000000010013c0204412355694b4100cf,
  0x201620000000000000099a6c2b25a80009b508e514e300fa0039800b3070100000000007d05450a0a0046197f000000e9000000200219040841371ec8554b00d0,
  0x4b000000000000008e72c021060482bb2defb30eb0004e003c003c090100000000009b32160605044614bf000000000000000401be111128281e32503c00d1,
  0x10079000000000000008e72c0a14e048abb6defb34eb001e7008c009e060100000000009b5f160605044614bf0000000000000008024b11113c3c2d4b785a00d2,
  0x43000000000000014802c8030280409a0aa4133b60002700320056070100000000001621260c0c0046147f000000f500000004012d030a3737554b5f4100d3,
  0x2008c000000000000009827c10c0820a4ba90c41fc720049c00b400af0002002803030087654403030046197f00000000000000080219080650374164824600d4,
  0x4b000000000000008822c4aa7000009a5a8e59072000cd003c00b10201000000003c7e520503030346147f0000002b002b041002be0506e60a05e60a1400d5,
  0x1007e000000000000009822c0ac4d00a8bac0ce5347a0021c009600af01020029030e00993e4403030546197f0000000000000008022d01065f28554b7d5000d6,
  0x1005e00000000000000db62d9140740a0fb81ec133e690118005a0056440100000000007c332705050323147f000000d9011e0040013c0e104b2373375f3700d7,
  0x4b000000000000009a22c0a4070080bbc0ce130eb10058003c004245010000000000765f3505050046147f00000000000000040178000032322832503c00d8,
  0x2008c000000000000009a22c0a44f0088bbc0ce534eb104ea00b400af050100000000007f5f3e05050046147f0000000000000008023c00004b4b374b825a00d9,
  0x520000000000000008a2c4800014029e6584118620015e00460032000100000000008531280b0b0046147f000000000000010001be090928461428282800da,
  0x100580000000000000088a2c4a25894029e758671c620022600500090000100000000008531280b0b0046147f0000000000000020024b050950501e78323200db,
  0x3b000000000000008822c0a00000009a518e13b270004100280032050100000000002f510c05050546147f000000000000000401e1040e1e1e3228323200dc,
  0x1006a000000000000008822c0a04800009a518e13f270022e006e009e050100000000002f510c05050546147f0000000000000005024b040e3c3c3250646400dd,
  0x4b00000000000000c8a2c0a05080409a51be1bb6680032003c008509010000000000901e370902044614bf000000ee00000410023c050a55412355373700de,
  0x4b000000000000014802c001000540ba24945376200078003c003c070100000000008d61370c020046147f000000000000010001be0a0a23414123412300df,
  0x1005e000000000000014806c0010a0550ba2e94537620011d005a00a8000100000000008d61150c020046147f0000000000000104024b0a0a4b692d4b694b00e0,
  0x1005e000000000000002a02c040000080ba80c413326000a0005a0074000100000000000f374805020446147f0000000000000040022d020e2d414b2d372d00e1,
  0x20099000000000000014802c0a00820409ac086137260089800d200a306010000000000290b2102020546197f00000000000008000219020a8c504646284100e2,
  0x10087000000000000003926c184220204bbd084150e3001f900aa00a30701000000000085053304040546197f0000000000000020021902084628468c504100e3,
  0x4b000000000000000962d000065402bf2ca4310e30006c003c0042040100000000787f123005050523147f0000000000000100017809103250411e3c2d00e4,
  0x10079000000000000008962d0000e5402bf2ca4314e30015e008c00af0402002a02ff5a7f123005050523147f0000000000000200022d0910506e5f325a4b00e5,
  0x2008c000000400000014806c0000808409a008413726005f000b400f3010100000000000661210e020046147f000000eb00000504032d0f0a5f5f555f5f4b00e6,
  0x43000000000000008822c0a00000019a5086110630014f003200420101000000000008353505050046147f0000000000000001017804042828283c3c5a00e7,
  0x1006a000000000000008822c8a25800019a508611463004b0006e00af0701000000000008050505050046147f0000000000000014023c04043c3c3278785a00e8,
  0x4b00000000000000080ad011280100aa80b5b376240145003c00b4000100000000009458240a0a004614ff0000000000000200022d00005f693c5a505500e9,
  0x1007900000000000000081ad0312c0110ba01b7b3863c02c8008c00a30501000000003c9d771605050546147f0000000000000004022d00004155553e5f4900ea,
  0x1006f00000000000000000000000000000000000000000244007800580801000000003c8d651405050446147f0000000000000040022d00002d144b23143700eb,
  0x52000000000000008822c0a0040000fa00c61306a000d20046002a0601000000000048503e0f0f004619000000000000000004014b010123232323232300ec,
  0x10079000000000000008822c0a2440000fa90ce1306a001e0008c009f050100000000005065160808004619000000000000000800022d01016e23465f5f3200ed,
  0x3b00000000000000080af050220081ba01b413b26c003c0028003d090100000000005d6c0c0f0f004619fe0000000000000100012d0d0e4155410f1e2d00ee,
  0x4b000000000000000a32c001a00180ba00d593822000eb003c0048420100000000004809090f0f0046193f0000000000000040012d0c0c37415f253f2d00ef,
  0x52000000000000000a22c000001482be24d411062000d600460049400100000000004831310f0f0046193f0000000000000040012d0909374653254b2d00f0,
  0x1006f00000000000000ca22c0b30c00899a50e7b3762002f3007800ac090100000000009d712f0505054614fe0000002100210020022d000046286469505f00f1,
  0x1007e000000000000008e32f0b12c05899a74f7bbf66801d4009602600901000000000083201e0606048c28fe000000e700e70003031e0000874b370a0aff00f2,
  0x20090000000000000009872c031a809008a11ad93c63806f400be0105020100000000000a2e2e0f0f052350ff000000000000018003030c0c6473734b555a00f3,
  0x20099000000000000009862c030681c028e35ac33463807bc00d2010505010000000000122e2e0f0f052350ff0000000000000009030309094b5a6455737300f4,
  0x20094000000000000015862c0300808408a11ac137678074e00c80105010100000000000b2e2e0f0f052350ff000000000000081003030a0a735a55734b6400f5,
  0x4b000000000000000b62c0a05600009b50ce534e2002d0003c003c0301000000005a083e3e01010523287f0000000000000004012d0405322d2932403200f6,
  0x1006f000000000000000b62c0a05600009b50ce534e2005f000780090070100000000003d3d3d01010523287f0000000000000008022d040546413346544600f7,
  0x2009400000000000000db62c2a15f04889bf4cfd37e3307e400c8010e0302002b0302007f2d2d01010523287f000000000000000c032d1005645f3d6e866400f8,
  0x2002a00000000000001e822d2312803058a91b79ff67c08700208013208010000000000882e2e0f0f050078ff0000000000000c000303020d9a5a6e825a6a00f9,
  0x2003500000000000000a822d0312817078eb5b7bfc63807c6017c013200010000000000902e2e0f0f050078ff0000002c002c0c00030302099a6e5a5a826a00fa,
  0x4b000000000000001c8bf0152801918a91b43bc6280032003c010e030100000000001e1e1e0f0f036478ff0000009d009d0003032d0b0d64646464646400fb,
  0x43000000010000009aa2e0842020909ac0cc39062000320032003e030100000000005441410e010346141f0000000000000040012d0b0b374146232d2800fc,
  0x1005e000000010000009aa2e1842020b0dac0cc39062000d8005a008e030100000000005441410e010346141f0000000000000080022d0b0b41555f2d413200fd,
  0x10087000000090000009aa2e1a42820b8dac0ce394633020a00aa00ef030100000000005441410e010346141f00000000000000c0032d0b0b55697841554600fe,
  0x3b000000020000009822c0840114039ee48c11062100190028003e0001000000000003424205050346141f0000000000000100012d090932462d283c2d00ff,
  0x1005e000000020000009a22c88401148bdee4cc1106a100c3005a008e0001000000000003424205050346141f0000000000000104022d01093c55373c553c0100,
  0x20090000000120000009a22c8a449348bdee4ce3146b1020800be00ef0002002c02fd0003424205050346141f000000000000000c032d0109466e504678500101,
  0x3b00000004000001c822c0800000419a428c133260004c0028003e0101000000000006434302010346141f0000000000000004012d0a0a3232283246320102,
  0x5200000004000001ca22c0a00000c19a42ce13326001180046008e0101000000000006434302010346141f0000000000000008022d040a463c324655460103,
  0x1007e00000024000001ca22c0a04800c99a42ce1372700333009600f10101000000000006434302010346141f000000000000000c032d040a5a553c5a6e640104,
  0x43000000000000000962c000064400bb00ac130e3000880032002c070100000000009b5f32050500460f7f000000000000000401ff10101e1e232337230105,
  0x10064000000000000008962c0000e4400bb00ac134e3001720064009307010000000000995f16050500460f7f0000000000000008027f10103c3c46465a460106,
  0x3b000000000000005822e001040181ba00ad93362100af00280030050100000000785f5235050500460f7f000000000000004001ff0000291e3c291e260107,
  0x4300000000000000d822e0010d0181ba00ad9376310145003200930801000000005a5f5235050500460f7f0000000000000080025a00003d32643d464e0108,
  0x3200000000000000000000000000000000000000000024001e002700010000000000321313030300460f7f000000000000000101ff06061e1414232d2d0109,
  0x4b00000000000000000000000000000000000000000064003c0048080100000000003d3d3d030300460f7f00000000000000200278060619190f372332010a,
  0x10064000000000000000803c408282010ba80b43d4720011c006400b2020100000000004f4444030300460f7f0000012700000300032d020632644132463c010b,
  0x520000000000000000000000000000000000000000007300460029060100000000003d3d3d030300460f7f00000000000000200178060619190f372332010c,
  0x1006f000000000000000803c408282010ba88b435c720013c00780087030100000000000e1313030300460f7f0000012700000c00022d03065a324146323c010d,
  0x43000000000000004882e004200051ba0084333660001a0032002c0301000000005a142c21070203460f7f000000000000040001ff0b0a32281e1e1e28010e,
  0x1006f00000000000001caa2e0042000d1ba00c43336610145007800770301000000003c142c21070203460f7f000000000000080002780b0a463c3232323c010f,
  0x1007e00000000000001caa2e0042800d9ba00c43376610226009600d803010000000000142c21070203460f7f0000000000000c00032d0b0a645a464646500110,
  0x430000000000000008a2e0042480309a00ac31062000280032002c0501000000005a7c3022070503460f7f000000000000001001ff0b0b1e1e1e3228280111,
  0x10064000000000000009be2e09426c0b0fb40ec3146200118006400770501000000003c7c3022070503460f7f00000000000000080278100b283c3c2846460112,
  0x10074000000000000009be2e1942ec0b8fbc0ec3146200254008200d8050100000000007c3022070503460f7f000000000000000c032d100b3c5a503c645a0113,
  0x32000000000000002803c000000005ba80841706200017001e003601010000000000713e3e040403460f7f000000000000004001c802001e1e551e37280114,
  0x52000000000000002803c000080005ba808417462000c60046009701010000000000713e3e040403460f7f0000000000000080022d020032327d3c553c0115,
  0x4b000000000000002803c000000045ba8084173260005f003c0036080100000000002c333304020046147f000000000000004001be020a1e37551e1e280116,
  0x1006f000000000000006803c0000a02c5ba8084177260011800780097020100000000002c333304020046147f0000000000000020022d020a46554164323c0117,
  0x3b000000000000000c0af011201181bb01b49b8e2c004200280028080100000000008c241c0b0b0523147f000000000000010001eb110d232d2819191c0118,
  0x10058000000000000000c0af011201181bb01b49b8e2c00ca00500061080100000000008c241c0b0b0523147f00000000000002000278110d3741322323260119,
  0x10083000000000000000c0af011281199bb01b49bce2c01e400a000e90802002d02f6008c241c0b0b0523147f0000000000000300032d110d737d50414144011a,
  0x43000000000000000802c418200040ba00a4333620001100320036010100000000782c2121030200460f7f000000000000004001c80a06343241201e28011b,
  0x10058000000000000000803c418280050ba80a43776200024005000910101000000005a7f1616030200460f7f000000de00000500024b020652503c3e3c46011c,
  0x3b000000000000000802e0042000309a0884390720002d0028003b050100000000785f5a1b070602460f7f000000000000000101ff0b0b3c28233c283c011d,
  0x1006f000000000000009a22e0846c00b8da48c43947a00188007800a10301000000005a655a1b070602460f7f0000000000000008025a010b3c3c4650823c011e,
  0x10058000000000000009a22c0800504809ae4e5b336a100f00050003805010000000000363636050505460f7f000000000000000101ff000023231e3c3c3c011f,
  0x10079000000000000009a22c0a0050488dae4e7b33eb101d1008c009a0801000000005a484848050505460f7f00000000000000800278000037375a5050500120,
  0x20094000000000000009a22c0a00d0c88dae4e7f37eb1051900c800fc05010000000000363636050505460f7f0000000000000003032d0000415f6464a0960121,
  0x43000000000000001802c1082000208a90ac31062100370032003507010000000000320e0e030301460f7f000000000000001001ff04061e1e285a2d1f0122,
  0x10058000000000000001803c10c280020ba90ac3546210078005000a002010000000000970303030301460f7f0000000000000080027802063232a02d5a3d0123,
  0x10058000000000000001802d108291020aa90ac314621000c00500053050100000000001919190a0a01460fff0000000000000002022d07061e1e282d5a010124,
  0x4b000000000000000802c0000404819a24a433363000a3003c0030090100000000009b2b2b05010346147f000000000000000101be000017331c1733400125,
  0x10064000000000000008a22c0a00404839b64e6733e3001950064007e01010000000000712b2b05010346147f0000000000000002027800002b47302b47540126,
  0x1007e00000000000000ca22c0a00c048b9b64e6737e300348009600dd01010000000000712b2b05010346147f0000000000000003032d0000495b443f5b680127,
  0x1006400000000000000ca22c8a0040088da40ce5306a003600064002f020100000000007d3e2f08080246143f000000000000000101b401011e14191e3c480128,
  0x200a100000000000000ca22c8a04e0088da40ce5346a009ea00e600a6050100000000007d3e2f08080246143f000000dd0000000202c801013c28323c78900129,
  0x28000000000000014802c0000000409a008413b260001400140026010100000000789d252f0f0f04460abf000000000000000101961100281414281432012a,
  0x10064000000000000008c22c0a1d080009b5087d10e2003ca0064004b0701000000003c9f2a050a0a0046147f000000ee0000001001ff05055a2d1e872d1e012b],
  [0x4b000000000000000812f0112601019a00adbb3628006e003c003409010000000000936038060504460fbf000000000000004001ff00002323322d2d32012c,
  0x1006a000000000000008832f0112e01019a00adbb76280146006e008506010000000000936038060504460fbf0000000000000041023c0000373746414146012d,
  0x43000000000000001f62d810275480fbc0fc130e29006e00320085060100000000009e643308080323197f0000000000000014022d07104141324b4b32012e,
  0x4b000000000000008b26e0944a45a89b7ce4335e200073003c00850402002e030f007d163406050446147f0000000000000014022d1108373732555532012f,
  0x3b000000000000009822c0a01100009ad08e1306310258002800420701000000005a86450501010523237f000000ee0000001001b4050828281e6446320130,
  0x1005e000000000000009822c0a05100009ad08e13063104b0005a00970701000000003c86450501010523237f000000ee00000020025a05083232288c5a3c0131,
  0x2009900000000000000db26c2a15b04889af4cff37e330e1000d200ef0702002f03000086450501010523237f000000ee00000030032d05083c3c32b46e460132,
  0x4b000000000000008a22f890240088da41f41386ac0070003c00380101000000005a8c4a4a08080046147f000000000000004001b40d0137283c37281e0133,
  0x10074000000000000008a22f8902c0098da41f413c6ac013b008200900002003002fe3c8c4a4a08080046147f0000000000000080025a0d014b3c504b3c3c0134,
  0x4b000000000000008852c001a00100ba04859382300098003c003b030100000000783a1f0905050546147f000000000000004001780c0c284141282d280135,
  0x1007e000000000000008852c001a80102ba048593c2300192009600a60202003103105a3a1f0905050546147f0000000000000080022d0c0c3c69693c4b460136,
  0x3b000000000000000812e001a001819a0085938220002a0028008e020100000000001f393906060046147f000000000000004002c80c0c4b555f28323c0137,
  0x3b000000000000000812e001a001819a0085938220002a0028008e020100000000000a3a3a06060046147f000000000000004002c80c0c554b5f32283c0138,
  0x52000000000000000e03c019202180ba80e5b7862000b10046008c0701000000005a9e4423080301460f000000000000000040029606064b2f553749410139,
  0x4b000000000000000e03c019202180ba80e5b7862000b1003c008c0601000000005a9e6e0c080302460ffe0000000000000040029606064b4955372f41013a,
  0x32000000000000001c82e8142000109a08a43307200014001e008c4301000000003c66261e07060346147f000000f5000002000296030b5064412d3c32013b,
  0x3b000000000000008a22d4000080009a0aa433172000670028003c03010000000078523c400b0b0246147f0000009b0000000101e10303352b28352b46013c,
  0x10087000000000000008a22d4200880009a0aa6335720032000aa00a306010000000000523c400b0b0246147f0000009b00000002024b0303534937534964013d,
  0x10058000000000000014942c000060040bb0084133a6000d00050003d0001000000005a0318180c0c0523147f000000e20000000401e1100a144141145a2d013e,
  0x2008c00000000000001c962c8200e0040bb4086137a70037800b400a1010100000000000318180c0c0523147f000000e200000008023c100a285f5f287846013f,
  0x2009400000000000001c822c0200000419a4086133270051400c80050010100000000002e0c290c050246287f0000000000000001017d0a0a23463c2346820140,
  0x2001400000000000001c822c0200800419a40861372700f8c05aa00af010100000000002e0c290c050246287f0000000000000002023c0a0a2d5a3c2d5aaa0141,
  0x520000000000000088a2c0a00014039e748e11062000f00046003d0201000000000014560c05050046147f000000000000010001ff04092d4123283c3c0142,
  0x200900000000000000088a6c0a05894039e748e314630089800be00a10001000000000053742805050046147f0000000000000104029604094b69284664460143,
  0x430000000000000088a2c0a24894029e6c863146200324003200a50501000000003c4b494905050046147f000000f900000020025a09094655148c55460144,
  0x5200000000000000080af011220100bb01b4138e2c0132004600420401000000000052142f05050446147f000000000000040001ff0d0d50463c23193c0145,
  0x1005e000000000000000a0af0312a0198bb01f413ce2c02cb005a00a50601000000000052142f05050446147f0000000000000800023c0d0d6e5a50412d500146,
  0x1006a000000000000008a3a5090240080ba40fc1b06280032006e007e4501000000003c7e4d14080504460f7f000000000000010002ff00003c3c3c3c3c3c0147,
  0x52000000000000008822c0a80000009a508e31462000960046003a050100000000787d473403030346147f000000ed0000000401ff04042d2d0a2d642d0148,
  0x1006a00000040000000a823c0a80000049a508e3546200099006e00770301000000005a1a1a1a03030346147f000000000000004402780f043232463246320149,
  0x2009400000040000000aa23c2a84804049af48e354623033400c800ea030100000000001a1a1a03030346147f0000000000000084032d0f04505064506450014a,
  0x3b000000000000001b82e8042200909a10c43107200201002800430301000000005a0b080808070323147f000001200000010001be0b0b285523285532014b,
  0x10074000000000000009b82e8042e40989a10c43147200306008200a60301000000003c0b080808070323147f0000012000000104023c100b3c73373c7346014c,
  0x3b000000000000002c02d010000005ba80843f1620000c0028003e010100000000000d1e1e0e040146147f000000000000040001ff02004b28323c282d014d,
  0x1006a000000400000002c22d030080405baa4863f563300ce006e00ac010100000000000d1e1e0e040146147f0000000000000800022d020f6946505a464b014e,
  0x10074000000000000008a22c9840744a8bae4edb33e310193008200a04801000000005a89111105050146147f000000d900000008025a00003c3c5a3c7349014f,
  0x200b0000000000000008922cf20060000ba0e8e130f20020d010e00a04401000000005a973d3d0e050246147f0000009c009c0104025a03033c64413c64490150,
  0x1006400000000000000080af0b278e1008a51b65bf22c06900064009a0201000000003c1a1a1a0a0a044619ff0000005100000200022d0d05555f464137460151,
  0x1006f00000000000000080af0b278f5028a75b679c62c06040078009a0001000000003c1a1a1a0a0a044619ff0000005000000008022d0d05413746555f460152,
  0x3b000000000000014802c0200000409a508613326000130028003a070100000000785d6b0c0c0c0046147f000000000000000101be040a292e3c2b30320153,
  0x1005e00000000000001c822c0a04800409a508613726000ec005a00a4010100000000005d6b0c0c0c0046147f0000000000000002024b040a474c3c494e6e0154,
  0x4b00000000000001d822c1840200e09ac8cc133a610073003c003e0001000000005a5b4b34090202460f7f000000000000000401cd0a0a23322341502b0155,
  0x1006a00000000000001d9e2c1840e00e09acacc137a610148006e00a4000100000000005b4b34090202460f7f0000000000000008029b100a375a3755783f0156,
  0x43000000000000000c0af0b23081008a51be7b962c00d70032003c050100000000001a1a1a0a0a004614ff000000000000040001ff0d044628373728280157,
  0x1007e000000000000008c2af0b27881008a51be7bd62c0438009600af040100000000001a1a1a0a0a004614ff0000000000000800025a0d0478464b69463c0158,
  0x10064000000000000000802e4843000109a588471062000ee0064004706010000000000721515090901461e1f0000012800000400012d0b05573d174d29420159,
  0x1007e000000000000008822e4a47800109a5a86714620025c009600ad03010000000000721515090901461e1f0000012800000800022d0b056b512b615156015a,
  0x52000000000000001822c18c1000209ad0cc510621007d0046004707010000000000210404090901461e1f0000000000000004012d060532284b325f2d015b,
  0x1007e000000000000009826c1ac5800209ad0ce51462102aa009600ad07010000000000210404090901461e1f0000000000000008022d060550462d647d4b015c,
  0x4b000000000000014802c0000000409a008413b260004a003c0028050100000000005b0c210e020146147f000000000000004001ff0a0a370a50140f14015d,
  0x2011b000000000000014802c2300800409a00841bf2600654026c00bd0901000000000038ac3f0e020146147f0000000000000800023c0a0a7d64514f3c5f015e,
  0x32000000000000000802c011240450ba34a5b336600008001e00930804003202de003b3b3b0b060046197f000000f300f30001022d0000464646464646015f,
  0x10064000000000000009a2ae091250580bae4edb3362100dc0064009a03010000000078a8101005050346147f000000000000040002c80000783c28465a3c0160,
  0x4b000000000000000d0ad011225100bb00b5930e280017003c003b0401000000009682770f0b0b0423197f000000f70000000401e10707213f2d234b2c0161,
  0x1006a000000000000000d0ad4112b5180bb00b5934e28007d006e009f0402003503015a82770f0b0b0423197f000000f700000008022d07073f53414173400162,
  0x1005800000000000000090ad410225180bb00b4133e2800960050003b04010000000078771a1a0b0b0423197f000000000000040001be07075a1e195a28140163,
  0x10083000000000000008b2ad4b02a5180bb40f6137e28013200a0009f0401000000005a772e2e0b0b0423197f0000000000000410025a0707823c198246280164,
  0x2009400000000000000b8a2e0242800149a80863d463003e800c800a10301000000003c8b5e2207010546197f000000000000000202c8020b5748335344630165,
  0x4b000000000000000c0af0112001119b01b41b8e2c000a003c00950101000000005a1a1a1a0b0b0446197f0000000000000500022d0d0d505f414632410166,
  0x1006f000000000000009962d1956f1521bbf4a5937e6901d6007800a348020036030c009a692e05050323197f0000000000000008021e10103c4b4b3c82410167,
  0x4b0000000000000000000000000000000000080000008c003c0034010100000000008c17170f0f0046147f0000000000000001017d0d0d30171730175f0168,
  0x52000000000000000802c0402000009a00a41bb26000a80046003c070100000000008d73270a060046147f000000000000000101be0e0e3232323232320169,
  0x1007e000000000000000902c0622a80009b00a61bfa600a05009600a8070100000000008d73270a060046147f0000000000000002024b0e0e505050505050016a,
  0x1005800000000000001c822c0e00000019a4086133260018b0050003a0101000000005a0c732f05020346147f000000000000000101ff0a0e323719322846016b,
  0x1006a00000000000001c822c0e00000019a4086133270036c006e00900101000000003c0c732f05020346147f000000000000000202780a0e464b2d463c5a016c,
  0x1007900000000000001c822c0e00800019a408613727005e2008c00ef010100000000000c732f05020346147f0000000000000003032d0a0e5a5f415a506e016d,
  0x3b000000000000014802c0000000409a0084133260020d00280045010100000000009b4b4b02020146147f000000590000001001ff0a0a374a20554023016e,
  0x10087000000000000014802c4000800409a4084137260010e00aa00aa0101000000000029212102020146147f000000e200000014023c0a0a4b5e34696837016f,
  0x2008c000000000000014802c4100800409a00b41b726000e200b400aa090100000000005d212102020146147f000000e300000200023c0a0a4b72346954370170,
  0x10064000000000000014822c0b05800409a50865b726800ea006400aa070100000000000545210c020546281f000000e3000000110219050a412d37825a640171,
  0x4b000000000000014802c0100000409a00841b32600057003c0074090100000000005d21210c0c044614bf00000000005d004002e10a0a412861371e2b0172,
  0x4b000000400000009822c0800104009ae4c413063301a5003c003c0101000000005a7d45450e0e0523287f000000fa00000004012d0f0f1e28323c4b2d0173,
  0x1006a000000400000009822c0800104009ae4c41306330451006e0093080100000000788e45450e0e0523287f000000fa00000020022d0f0f323c32645f410174,
  0x1007e00000040000000b822c2a04904049ae4c617463304020096010e010100000000009916160e0e0523287f000000fa0000000c032d020f506e6450875f0175,
  0x4b000000000000000000000000000000000000000003b8003c003c4101000000005a871d1d0a0a052328ff000000e90000001001030d083c231e5037280176,
  0x1006f000000000000009a26e0b23080008ad9f613c62507e9007800930101000000003c871d1d0a0a052328ff000000e90000002002030d08503732644b3c0177,
  0x10083000000000000009a26e0b23880008ad9f613c625157c00a0010e01010000000000871d1d0a0a052328ff000000e90000003003030d085a5f468287500178,
  0x10087000000000000008a22c0b15881888a50cfd9462008fc00aa010545010000000000051d1d0f0f052350ff000000000000003003030505643232c864500179,
  0x2008c000000000000008a26c0f11881888a40c79b726006d600b4010501010000000000731d1d0f0f052350ff0000000000000c0003030e0ec86432643250017a,
  0x20090000000000000008a26c0b11981888ad0c79b4621080200be010507010000000000871d1d0f0f052350ff000000000000042003030808964b32964b50017b,
  0x10079000000400000017802f0312d01149a91b7bfd63f0190008c010e000200370313001a1a1a0f0f055a78fe0000000000000c0003030d0f826e6e5a5050017c,
  0x20094000000400000017802f0312d01149a91b7bfd63f025800c8010e010200380312001a1a1a0f0f055a7800000000000000030003030d0f6e826e505a50017d,
  0x2003800000000000001c822c0b10800408a40c79b72780dc001c2012e010100000000000202020f0f050078ff000000000000030003050a0a8c965a5a6464017e,
  0x20038000000000000009a22c2b559048a8af4cff946b3251c015e012e000100000000004646460f0f050078ff000000000000000c030504045a645a8c9664017f,
  0x2012f00000040000001e822c2b749069b8af4c7b376b3081102bc0132030100000000004c4c4c0f0f050078ff00000000000001080303020f5a965f5a96690180,
  0x32000000000000000e0ff0112801908a91b59bc62c000b001e010e020100000000002020200f0f056478ff0000005b005b000303030d086464646464640181,
  0x10087000000000000009b2ef891280198cbc1f5bbde2c026000aa010e0004003902d2002e2e2e0f0f050078ff000000000000014403030d0d3296963296320182,
  0x3b0000000100000098a2e0042000109a0184398620006600280040030100000000004b414107010346141f0000000000000004012d0b0b372d1f4044370183,
  0x1006a0000000100000098a2e0042000109a018439862003ca006e008e030100000000004b414107010346141f0000000000000014022d0b0b41372455594b0184,
  0x2009d0000000900000098a2e0a47800109a518639c6300c1c00dc00ec430100000000004b414107010346141f0000000000000018032d040b554b38696d5f0185,
  0x43000000020000009a23e004013482dfa4cc110ea1003e0032003e4501000000000059424208050346141f0000000000000040012d09092c3a3d2c3a2c0186,
  0x1005e000000020000009a23e88405348adfe4cc110ea100dc005a008e4501000000000059424208050346141f0000000000000140022d0109344e51344e400187,
  0x1006f000000120000009a23e8a44d348adfe4ce314eb90226007800f00501000000000059424208050346141f0000000000000144032d010947686c47684c0188,
  0x3b000000040000015802e0000008c19ac0cc13326000340028003f0101000000000080434305020346141f0000000000000100012d0a0a383d283533350189,
  0x1005800000004000001d822e0000108c19ac0cc13326100e60050008e0101000000000080434305020346141f0000000000000200022d0a0a4c5132444240018a,
  0x1008700000024000001d826e0a40908c59ac0ce137271034d00aa00ef0101000000000080434305020346141f0000000000000300032d080a656f3c585654018b,
  0x32000000000000002803c000000005ba80841706200014001e00310501000000005a783333040403460f7f000000000000004001ff02001e1e3c1e3728018c,
  0x4b000000000000002803c000040005ba8084170620009b003c00770501000000003c781616040403460f7f000000000000008002780200282850324b37018d,
  0x1006f000000000000002803c0000c0005ba808417462000f9007800da05010000000000781616040403460f7f000000000000000c032d02003c3264467855018e,
  0x43000000000000001822e001040101ba00ad933e2000c8003200320501000000005a8d6d56050200460f7f000000000000000101ff000028231f282d3b018f],
  [0x1006400000000000001d822e0210c01c1ba00ad937e20013b006400900501000000003c8d6d56050200460f7f0000000000000008027f0a003c37473c554f0190,
  0x3200000000000000000000080000000000000000000016001e002700010000000000323d3d030303460f7f000001150000001001ff06062919192919250191,
  0x10064000000000000009a22c50c2800219a80c4134e2100ff0064008600010000000000654444030303460f7f0000011500000008022d060633374133554d0192,
  0x43000000000000008852c001a00100ba0085938230005f00320035010100000000783e164f05050346147f000000000000000401eb0c0c22282d22412d0193,
  0x1005e000000000000008852c001a00100ba00859382300131005a007f0101000000005a3e164f05050364147f000000000000000802780c0c313c3c31553c0194,
  0x10079000000000000008852c001a80100ba008593c23001a4008c00eb010100000000003e164f05050346147f000000000000000c032d0c0c4f5f464f78500195,
  0x28000000000000001c82e0142000109a08a4330720000c001400384301000000007866261e0f0f0346147f000000f50000010001ff030b463237231e280196,
  0x1005e000000000000001c82e8142800109a08a43347200091005a00e84301000000000065261e07060346147f000000f500000300034b030b697d5a41463c0197,
  0x1005e000000000000008a22c0a4520480ba748fd33630013b005a0046010100000000007d6868010101461e1f0000000000000004012d05051e1e3a287d430198,
  0x1008300000000000000da22c2a45a0488ba74cfd37630040100a000ad010100000000007d6868010101461e1f0000000000000008022d050532413a3ca5610199,
  0x43000000000000008826c0a05004009b748fd33e30023a00320046070100000000002b0505010101461e1f0000000000000010012d0805582a1e762a1e019a,
  0x10074000000000000008826c0a05804009b748fd37e3005d7008200ad070100000000002b0505010101461e1f0000000000000020022d08058a2f1ea8343c019b,
  0x28000000000000000000000000000000000001020000220014002d0703003c0000008e3d3d030300460f7f0000000000000400017806062d1d242d1d28019c,
  0x43000000000000000802f418280010ba00b43b47200041003200940703003e02d5008e6b6b030300460ffe000000de00000800022d0b06694f24553b3c019d,
  0x1005e000000000000000803d418282010ba80b43f472000e9005a0094020100000000006e4444030300460f00000000de00000104022d0206325e42325e46019e,
  0x3200000000000000000000000000000000000000000037001e003102010000000000377676030303460f1f0000005e00000040017802062a1e462a1e1e019f,
  0x1006f000000000000001803c508282880ba88841747210181007800a6020100000000007f2e2e030303460ffe000000f500000410022d020666502866504601a0,
  0x3b000000000000001803e001a001819a008d93822000270028008e080100000000780a3532060500640a7f000000000000004002c80c0c5a2d5f462d3c01a1,
  0x5200000000000001ca22c0000000419a40cc1332e00127004600420501000000007829212105020046147f000000000000004001be0a0a1e3c5523413701a2,
  0x1006a00000000000001ca22c0000a00499b40cc137af0014f006e00ad0501000000005a29212105020046147f0000000000000080024b0a0a32557337695501a3,
  0x3b000000000000000c82e0042000109a00843906200021002800370901000000000022222207060046147f000000ef0000010001be0b0b353e232d232d01a4,
  0x43000000000000000c82e0042800109a0084394620005d0032009e0902004002e1007a7a7a07060046147f000000ef00000200024b0b0b4e5755463c4601a5,
  0x32000000000000004802c4000000409a0084133260003f001e0041060200410000009f723c0b020046147f000000000000000101be0a0a3e392230304c01a6,
  0x1005e00000000000001c822c4a06800409a5a8e137260012b005a00a6060200420000009f723c0b020046147f0000000000000002024b040a525c2744536f01a7,
  0x1006f000000000000009a23f0010f2080fa80edb34e2100cb007800a9060100000000005c356505050464147f0000000000000080022d0000423c7342644b01a8,
  0x3b000000000000001802d01322f100ba00b5930628000c00280046060100000000008a546a0b0b02461e7f0000000000000001017d02072c3c4622325a01a9,
  0x1006f000000000000003802d0132af100ba00b59346280096007800ae060100000000008a546a0b0b02461e7f0000000000000002023c0207365a502c509601aa,
  0x3b000000000000001a22e0010401809a00acb316200037002800460501000000000007673208050000147f000000000000004001be0000382c552c423701ab,
  0x1006f000000000000009a22e0010c0188da00adb37620014d007800a8050100000000000767380805008c147f0000000000000080023c0000603669544c4101ac,
  0x1005e000000000000000d0ad0112a5111bb80b5934e28002c005a00ad060100000000001a1a1a0b0b0423197f0000000000000500022d07076969693c3c3c01ad,
  0x1005e000000000000002942d0110e4c04bb80b4174e280111005a00b10401000000000099690f04040323147f0000000000000008021e0210346947347d6401ae,
  0x43000000000000001803d010270001bb80ad930e2100270032003e070100000000003314070505044614bf000000000000004001be0000252a552a373101af,
  0x10064000000000000001803d0302f0001bb80ad934e3101b60064009e0701000000000080142f0505044614bf0000000000000080024b00003b407040524701b0,
  0x28000000000000000c0af0112001019b01b41b8e2c000600140039020100000000781a1a1a0f0f0446197f000000000000010001780d0d32412d321e2d01b1,
  0x3b000000000000001962c000038400bb2cac130f3100c00028004206010000000000336a0105050046147f000000000000004001e1100329294a2f3f3f01b2,
  0x10064000000000000009962c8000b8400bb2cac134f31017c006400a806010000000000336a0105050046147f0000000000000002023c10033d4754435d6701b3,
  0x4300000000000000080ef0b23201008a51b63b862c025d0032003c0301000000005a86551a0a0a004614ff000000e90000001001ff0d0856181756183901b4,
  0x1007400000000000000882ef0b23a81008a51b63bc62c074e008200af0301000000003c86551a0a0a004614ff000000e900000410025a0d08744f2174594301b5,
  0x43000000000000000882c090108000ba50cc51062800960032003a050100000000009b45050f0f0046147f000000000000001001ff05052d0a0a5f503201b6,
  0x4b00000000000000080af411200180bb01f5bb8e2c0082003c003e09010000000000656f2b0f0f0046197f00000000000004000191110d5a463c2d191401b7,
  0x4b000000000000000802f0112004819a24b43b866000f4003c006e0901000000000084201e0f0f048c28fe000000e7006e000101820000410f1e05056401b8,
  0x43000000000000002803c000000005bb8084170e2000130032009004010000000000914d3304040323147f0000011500000004021e02002a5c5b2d414c01b9,
  0x10064000000000000000942d4102c5800bb40b4134e280438006400aa06010000000000972e2e0b0b00461e7f0000000000000410026410076c5c236c5c3201ba,
  0x52000000400000009822c0a04104009af48e13063300cd0046003c0101000000005a1808080e010546287f0000000000000004012d040f2d282a2d463a01bb,
  0x10079000000400000009822c0a04104009af48e1306330230008c0090010100000000001808080e010546287f0000000000000008022d040f373252415a4401bc,
  0x2009000000040000000d822caa44904a09af4ce13463303b600be010e010200430311001808080e010546287f000000000000000c032d040f5550665f826c01bd,
  0x4b00000000000000ca22c0a00404809a74f7b33620041a003c004e04010000000000522f350f0f0546281f000000ea00ea00010132000055280528558701be,
  0x52000000000000008a22c8a4070088da40ce1306b000ca00460039010100000000789e27500f0f0346191f0000000000000004014b010128233c28462801bf,
  0x1006f000000000000008b26c8a44f0088da40fe1346b9021c007800b8010200440306009a275008050346191f0000000000000104022d080146735a466e4601c0,
  0x10058000000000000008822c0a00000009a508e11063001ef005000420501000000003c9f2d2d050505461e7f0000000000000010018c04042a26204e484401c1,
  0x20094000000000000008822c0a04800009a508e1146300bb800c800b8050100000000009f2d2d050505461e7f0000000000000020023c040448442f76706c01c2,
  0x10058000000000000009922cd0c2200a0bbc8ec130f210078005000420601000000007833610409030546147f000000f50000001001780603371e415a322801c3,
  0x10074000000000000009962cdac2e00a0bbc8ee134f310267008200af0601000000003c33610409030546147f000000f500000020022d10034b3c5f6e5a4601c4,
  0x52000000000000008b22c9a0064088fb4aee130fa000e60046003c010100000000968f576b080800640a7f0000011900000004018c0103283d32283d3001c5,
  0x10074000000000000009b22c9a44e4088fb4aee134fa001bc008200ac010100000000788f576b08080046147f0000011900000008024b0103415655416a5301c6,
  0x10079000000000000001882e4042a0090ba0884314620010e008c009f0301000000003c1a1a1a07070546197f000000000000000802c80b0b485a2e48644a01c7,
  0x3b000000000000014883c0102200409a00841b3260004600280042010100000000002972210c0c0146147f000000000000004001be0a0a3d314238313101c8,
  0x1006f000000000000014803c0102a00409a00841b726000f0007800a1010100000000002972210c0c0146147f0000000000000080024b0a0a56455b4c454501c9,
  0x10064000000000000014802c0a00020409a8086133260028a0064004501010000000000290b210f0f0546197f00000000000004000119020a783c3232142d01ca,
  0x10064000000000000000802e0442000109a00a43bb26001f900640043080100000000002b757507010546147f000000f60000000401780e0b3c3e28323e3c01cb,
  0x2009d000000000000008822e0e42800989a40e63bf260054b00dc00ad080200450307002b757507010546147f000000f600000104023c0e0b555c3c4b5c5a01cc,
  0x1006a00000000000000db62d9140f40a8fb81ec137e690154006e00b3040100000000007c2e2e05050323147f000000d9011e0044022d0e10552d7d41784601cd,
  0x1006f000000000000000816c013a881008a018593c6200708007800f10701000000000094052a0a0a004614ff000000e900000300031e080c5a823c73464601ce,
  0x1008700000000000000da22d2b60c8488ba74efb37620057800aa00b4090100000000000d0c1401010046147f0000011700000003021e00005f50325f556e01cf,
  0x200a500000000000000da26caa45b0488ba74cfd376300b0c00f000f10701000000000078741f05010546147f000000000000000c031e0504373728828c7301d0,
  0x200940000000000000098a2ecb42a0098bac9c6314620050600c800bb0101000000000090662207070046147f0000000000000020021e0b0b326e327d646401d1,
  0x2008c000000000000008a32c0a1a80188fb44df93ca20056a00b400f302010000000000484e4e08080046193f000001420000000c031e0c0c555f5f437b4b01d2,
  0x10083000000000000008a22c0a008148aff64d6b14e2002a800a000f34001000000000048313108080046193f0000014300000300031e09095f7d53435f4b01d3,
  0x1007e000000000000002c22f0112c04859aa5f43fc624017c009600f548010000000000692037060404460a1f0000000000000600031e02117378505f325501d4,
  0x20090000000000000000803d018280004ba80b4354620020300be00b403010000000000776e0303030046147f0000010900000008021e020638745f564c5601d5,
  0x100640000000000000088a2e1042c00119a80ac33463000ff006400b80301000000000022666605050023231f0000000000000020022d0b0b413c5f826e4101d6,
  0x10058000000000000008822c0400c00019a00ac1376700103005000b80101000000000073515105050023231f0000000000000200022d0e0e5f82416e3c4101d7,
  0x20094000000000000009923c9ac5a20a4bbd8ce174f2101a900c800b3060100000000005a083403030346147f0000000000000020021e02044b2d5f7d5f4b01d8,
  0x200a9000000000000008822c0a04800009a518e13f2700b5e00fa00ef050100000000002f510c05050546147f000000000000000c0332040e3c465050826e01d9,
  0x1005e00000000000000090ad011284100aa80b5b376240154005a00f10001000000000094585b0a0a004614ff0000000000000300031e00004b875a46505501da,
  0x10083000000000000009e2af9b56c11a9fbc1f69bceac020800a000e9080100000000009a50500b0b05231400000000000000000c032d010d734150417d4401db,
  0x10079000000000000008c26c0a1d880009b5087d14e200d48008c00b8070100000000009f2a050a0a0046147f000000ee00000810023c0805964b2891373c01dc,
  0x2009d000000000000008b2ad4b02a5188bb40f6137e28042a00dc00ec04010000000000772e2e0b0b0423197f0000000000000810032d070787412d87642d01dd,
  0x10074000000000000000802d0512a40809b00b59bfa60010a008200a8080100000000008251510a06004614fe0000000000000080024b070e46506e46504601de,
  0x32000000000000000902d011a01100aa01a59386200003001e009a0006004602d9001a1a1a0b0b004614ff0000000000000140022d070c4d5f5b4d323201df,
  0x32000000000000000e0bf0112821908a11b5bbc62c0003001e0105020100000000001a1a1a0f0f058c50ff000000000000042003030d0d824b5f824b4b01e0,
  0x32000000000000000e0bf0112821908a11b59bf62c0003001e0105090100000000001a1a1a0f0f058c50ff000000000000050403030d0d69695069695001e1,
  0x32000000000000000e0bf0112aa5908b35b59bce2c0003001e0105010100000000001a1a1a0f0f058c50ff000000000000010803030d0d467d73467d4b01e2,
  0x2002a00000040000000982ec2b16904038af4c79b76b31aae021c0132080100000000008c2e2e0f0f050078ff0000000000000300031e0f0864965a78786401e3,
  0x2003100000040000000d82ac2b14904898af4c79b76f30d2001a40132060100000000008c2e2e0f0f050078ff0000000000000300031e0f0a78966464785a01e4,
  0x100870000000000000089a6c0a04a94029f648e314e3010cc00aa010e050100000000003112120f0f05640a7f0000000000000300030308096a824d6a5a5b01e5,
  0x20036000000000000008aa2c0b15e008882c0c7da462010680172012e080100000000007070700f0f050078ff000000000000000c030300006e50646ea06e01e6,
  0x2003000000040000000b922d2314b11158a80b79b463b1d4c01c201320402004b02d8008c2e2e0f0f050078ff000000000000000303030f0778645a78649601e7,
  0x1007e00000000000000080af0112801109a01b43bd62c03580096010e020100000000001a1a1a0f0f056478fe0000000000000c0003030d0d824b5578467801e8,
  0x3b000000000000014c03e0100000c08a00841b3260001f002800d8010100000000005d5d5d0602054628ff0000000000000001031e0a0a50505050505001e9,
  0x32000000000000014c03e0102800d08a01b41bf268000e001e010e010100000000005d5d5d060205460aff000000000000000303030a0a64646464646401ea,
  0x1007e000000000000009b62d9952f5588abc8f5937e2801f90096010e040100000000007b7b7b0f0f050078ff0000000000000240030310105a877d5a5a4601eb,
  0x28000000000000000c82e0142800108a009439462000150014010e0302004c02d7001e1e1e0f0f036478ff0000009d009d0003032d0b0b64646464646401ec,
  0x2003c00000040000001f96ef9b56f1d1b8afdf7bbf67f0c8001400144871200000000007979790f0f050078ff00000000000000030303000078787878787801ed,
  0x3b000000000000000e3be01128559a8e24f5b9ce2400280028010e02010000000000a2a2a20f0f056478ff00000000000000030303090d64646464646401ee,
  0x4b000000010000001882e0042000109b8184398e280051003c003e030100000000007e414107050346141f0000000000000040012d0b0b372d3f372d2d01ef,
  0x10058000000010000001882e0042000109b8184398e2800a000500091030100000000007e414107050346141f0000000000000080022d0b0b4b3c534b3c3c01f0,
  0x200c50000000900000098a2e2042800109b818439ce280276014a00ee030100000000007e414107050346141f00000000000000c0032d0b0b5f4b715f4b4b01f1,
  0x43000000020000008832e0020014039e6484310e3000630032003e000100000000002f424205050346141f0000000000000001012d09092d2d2d2d3f4101f2,
  0x10064000000020000008a32e8a240148bde64c4310e30022b00640092000100000000002f424205050346141f0000000000000008022d0109374637375d5a01f3],
  [0x10083000000120000008a32e8a24814cbde64c6714eb005dc00a000ee4001000000000078424205050346141f000000000000000c032d0109416441417b6e01f4,
  0x43000000040000015822e1040400e09a808c133a60003b0032003e010100000000004b434305050346141f0000000000000100012d0a0a2d3f2d2d373701f5,
  0x10058000000040000015822e1040400e09a808c133a6000f500500091010100000000004b434305050346141f0000000000000200022d0a0a3c533c3c4b4b01f6,
  0x1007e00000024000001d822e3040c00e09a808c137a6003b2009600ee010100000000004b434305050346141f0000000000000300032d0a0a466c4655645f01f7,
  0x43000000000000001802e0040400809a00ac93062000740032003305010000000000943332050500460f7f000000000000000401ff000027232a27372d01f8,
  0x1006a000000000000009a22f0152c00889a04ad93c620010e006e00930501000000000094332305050046147f000000000000000802ff0000453c4d45553c01f9,
  0x3b000000000000000872c0010c00009ac0ac93063000290028003705010000000000323548050503460f7f000000000000000401ff00002d19372d3c2d01fa,
  0x1005e00000000000000c872c0010e00009ac0ac9306300093005a008207010000000000719216050503460f7f00000000000000080278000041233c41504101fb,
  0x1006f00000000000000c872c0010e00009ac0ad9346300262007800e107010000000000719216050503460f7f000000000000000c032d00005a2d505a6e5501fc,
  0x3b000000000000001943f011034001bb80a4130e21006500280038060100000000009e540705050046147f000000000000004001ff101025324225322901fd,
  0x1006a000000000000001963f0110b4001bb80a4134e210177006e009c060100000000009e540705050046147f0000000000000080025a101032586a32584001fe,
  0x4b0000000000000018a2e000232090fb408c310e210069003c003f0301000000000041525205050046141f000000000000004001be0b0b30354030353201ff,
  0x1006a000000000000001aa2e0802b2098fb40cc314e210131006e00ae0301000000000041525205050046141f0000000000000080024b0b0b3f62653f624b0200,
  0x4b000000000000001822e000033482ff648c310e21006e003c003f4001000000000042525205050046141f000000000000004001be09093035403035320201,
  0x10064000000000000001a22e0800b348aff64cc314e210118006400ae4001000000000042525205050046141f0000000000000080024b09093f62653f624b0202,
  0x4b000000000000015822e0000320c0fb408c133a610087003c003f0101000000000043525205050046141f000000000000004001be0a0a3035403035320203,
  0x10064000000000000015a22e0800b20c8fb40cc137a610122006400ae0101000000000043525205050046141f0000000000000080024b0a0a3f62653f624b0204,
  0x4b000000000000000c0ad0932001109b41b41b822c00e9003c003a090100000000008c1c6c050504460a7f000000000000000101be0d0d3743182d194c0205,
  0x1006a000000000000000c0ad0932801109b41b41bc22c025d006e00aa090100000000008c1c6c050504460a7f0000000000000002024b0d0d5f6b1d5537740206,
  0x32000000000000002803c0000000059a8084170e200015001e0035070100000000004f6991040403460f7f000000000000000401ff02001e242b3237320207,
  0x4b000000000000002803c0000000059a8084170e200096003c007d070100000000004f6991040403460f7f0000000000000008027802002a32413e4d3e0208,
  0x1006f000000000000002803c0100800059a8084174e200122007800dc070100000000004f6991040403460f7f000000000000000c032d020037415d5073500209,
  0x10058000000000000000812c001a001009e0085938220012a0050003b040100000000009d4e1f05050046147f000000000000004001be0c0c20324c203c2d020a,
  0x10083000000000000000832c001a801029e008593c220031b00a000ae040100000000009d4e1f05050046147f0000000000000080024b0c0c3f50743f644b020b,
  0x3b0000000000000088a6c0a05080009a508651022000b400280038010100000000009f05050a0a03460f7f000000ee00e5001001ff050519190f554b37020c,
  0x1005e0000000000000088a6c0a05080009a508651022003fc005a0089010100000000009f05050a0a03460f7f000000ee00e5001402780505283214696946020d,
  0x100870000000000000088a6c0a05880009a50867142200a2800aa00e8010100000000009f05050a0a03460f7f000000ee00e5000c032d0505503c19828755020e,
  0x3b00000000000000280bd013206114bb81b41f8a2c00150028003f0101000000000056676d040500460f7f000000000000004001be020d2b37482b2d37020f,
  0x1005e00000000000000280bd013286114bb81b41fca2c0069005a00950101000000000056676d040500460f7f0000000000000080022d020d374d723739430210,
  0x32000000000000009822c9a40100809ad8ce1102210055001e004247010000000000689f9205050046147f0000000000000004017804042d1e4428553c0211,
  0x52000000000000009822c9a40900889ad8ce1142210194004600b247010000000000689f9205050046147f0000000000000008023c08044132583c876e0212,
  0x1006a000000000000004e1af0112405819a25bdbbf62c0136006e01860901000000000067908306060446147f0000009e009b000202ff0000563c32563c670213,
  0x4b000000000000008a22e880460088da40cc530ea0007d003c003d07010000000000597d3e08080346143f000000000000000401b4010123192337504b0214,
  0x1006f000000000000008a22e880460088da40cc530ea001900078008e07010000000000597d3e08080346143f0000000000000008025a01013228285569550215,
  0x10079000000000000008a22e8a04e0088da40ce534ea00366008c00e305010000000000597d3e08080346143f000000000000000c032d010141372d5f8c690216,
  0x43000000000000004802c4000000419a0a84130260002d0032003b010100000000000b5d2102020346147f000000000000004001ff0a0a2832402832320217,
  0x10058000000000000004822c4200000419a0a8413026000aa00500086010100000000000b5d2102020346147f00000000000000020278040a37414537414b0218,
  0x1007e00000000000000ca22eca00a00c99a4ace134360026c009600e5010100000000000b8f2102020346147f0000000000000003032d040a4b554a4b5f690219,
  0x10074000000000000008a22e8a04e0088da40ce130ea0022b008200a30001000000000068273e080800461400000000f100000002022d0101551e2d556478021a,
  0x10079000000000000008a22e8a04e0088da40ce130ea001fe008c00a341010000000000682705080800461400000000f100000008022d01014b1e554b7d4b021b,
  0x32000000000000001882f0082200109a00843986280019001e003e020100000000008e2244030303460f7f000000db0000001001ff0b063c282a46352d021c,
  0x43000000000000001882f0082200109a0084398628004900320085030100000000008e2266030303460f7f000000db0000002002780b0650322a5a3f37021d,
  0x1006f000000000000001882f90c2f00349a818439c62900cd007800e1020100000000008e2244030303460f7f000000db0000000c032d0b0650465c50674b021e,
  0x3b000000000000000822cc0a0200009a088431072000350028003400010000000000034426030303460f7f000000f50000001001ff0306271e393b2d1e021f,
  0x1006f000000000000000822cc0a0200009a088431072002490078007e07010000000000034426030303460f7f000000f500000020027803064f282f6337280220,
  0x200a9000000000000009822cdae0a00009a488e31472007d500fa00da0001000000000003442603030346147f000000f5000000c0032d030645377059643c0221,
  0x32000000000000000c82f0002000109a0084390e200006001e00380301000000000022979e06070046147f000000000000004001be110b3225423c1b280222,
  0x52000000000000000c8bf000280090ba00b439ce200042004600a80301000000000022979e06070046147f0000000000000080024b110b4b4d7455433c0223,
  0x43000000000000001882f0002000109a0084390620004200320038030100000000006614220707004614fe000000000000010001be0b0b32461e32232d0224,
  0x1006a000000000000001882f0042800109a008439c62000a3006e00a8430100000000006614220707004614fe0000000000000200024b0b0b4b6e5a4b3c460225,
  0x10064000000000000015802c0000000409a0084131a6000b4006400a10302004d02e200685b780c0c0046287f000000e20000008002190a0a375062415c460226,
  0x52000000000000001942c0a0464400bb588e110a3100980046003a0501000000000053991605050346147f000000000000000401b410042323412348320227,
  0x10064000000000000009b62e0a0474480fb58ce110a31014e0064007b0501000000000053991605050346147f0000000000000008025a10042d2d4a2d523c0228,
  0x1007e000000000000009b62e2a04f4488fbd8ce514ab303c3009600ea0001000000000053991605050346147f000000000000000c032d100446415c50755f0229,
  0x4b000000000000008a23e082001482be64cc310e300177003c003f0001000000000027373705050346147f0000000000000004017809092d0f322d5a46022a,
  0x10074000000000000008a23e0a24a148abf64de714eb003a1008200a80002004e02e300a17d7d05050346147f0000000000000008023c0909371e5f378c69022b,
  0x10064000000000000000882e8000000109a80843906200118006400a10301000000000072220b07070046147f000000ef0000020002ff0b0b436a3c43564b022c,
  0x320000000000000098a2c9ac5100009ad08e7102210091001e004100010000000000854b050a030046147f000000ee0000001001be0506232337554132022d,
  0x100790000000000000098a2c9ac5900009ad08e71422107d0008c00a600010000000000854b050a030046147f000000ee00000020024b05064b412d7d5f46022e,
  0x4b000000000000008b62ea80460488db48cc530eb20076003c00460201000000000016993d0e0500230f7f000001270000000401b40110462330464b32022f,
  0x1006a000000000000008b62ea804e0488fb48cc534eb2012c006e00ab0001000000000016993d0e0500460f7f0000012700000410025a0110732d3a735a410230,
  0x10079000000000000002d0ed011200114ba81b47fd22c008c008c00ac040100000000006e629304040046147f0000000000000200022d020d506761503a480231,
  0x4300000000000000090ad410225010ba00b41b0228000f0032003d040100000000009898980b0a0046197f000000f70000001001be070741371e551e260232,
  0x1008700000000000000090af4102a5010ba00b41b422802fd00aa00a9020100000000009898980b0a0046197f000000f700000020025a0707695f1e91323a0233,
  0x5200000000000001c822c0a05000409a508e53322000a50046004701010000000000210574090200461e1f0000000000000010012d050a2d3516674e360234,
  0x1006f00000000000001c822c0a05800489a508e537220032a007800ad01010000000000210574090200461e1f0000000000000020022d050a415320856c4a0235,
  0x43000000000000001823c0a05120049bd08e550a33005f0032004702010000000000818181090400461e1f0000000000000004012d02052d4a462d70370236,
  0x10079000000000000003823c2a059200c9bd08e554a330140008c00b102010000000000818181090400461e1f0000000000000008022d020541706e418c4b0237,
  0x4b000000000000000902c400028000ba0a841307200136003c0042030100000000006a3c010a0a0046147f000001190000004001be03033e28413e32320238,
  0x20090000000000000000902c4001a8088ba0a94f34720043100be00a6430100000000006a85010a0a0046147f0000005c01190008023c0303523c4b525f500239,
  0x52000000000000001943e014064480bb80ac130e39007d004600424701000000000095959505050346191f0000000000000100014b1010285041284128023a,
  0x10083000000000000001963e0140f4488fb84ac134e39032b00a000b30701000000000095959505050346141f0000000000000200022d10103c78693c693c023b,
  0x3b000000000000000c03e001040081ba008c9b0628003a0028003c070100000000005c6538050504460fbf000000000000004001ff000028284b283237023c,
  0x43000000000000000c03e0010c0089ba008d9bc628004b003200a5070100000000005c6538050504460fbf0000000000000080023c00003c41733c5f4b023d,
  0x3b00000000000000080af091224190bb41b49b8a2c003a0028003a0601000000000017ac770808034614bf000000000000040001c80d0d41372d321e2d023e,
  0x5200000000000000080af091224190bb41b49b8a2c00b4004600890601000000000017ac770808034614bf000000000000080002640d0d554b37462d3c023f,
  0x1007e000000000000000a0af0912a4190fb41f49bca2c01b8009600dd0601000000000017ac770808034614bf0000000000000c0003320d0d6e5f415f37460240,
  0x3200000000000000080ed49320c0109a41b51b822c000a001e003a4301000000000090628e0b0b0346147f000000000000010001c80d0d326914281e2d0241,
  0x4b00000000000000080ed49320c0109a41b51b822c0050003c00820301000000000090628e0b0b0346147f000000000000020002640d0d3c7d1e3228410242,
  0x10064000000000000008a2ef49328c0989a41b51bc22c00c9006400dd0301000000000090628e0b0b0346147f000000000000030003320d0d557d1e4b416e0243,
  0x43000000000000006802c0000000449a808417126000370032003d010100000000005d913304020046147f000000000000000101be020a322c37322c3e0244,
  0x10074000000000000006802c0000800449a808417526000f2008200a6080100000000005d913304020046147f0000000000000080022d020a3f57623f574b0245,
  0x3b000000000000000806c0400080009a008413ba6000390028003d080100000000008573730a0a0546147f000000000000010001ff0e0e3c412c3232240246,
  0x1006a000000000000000806c0400080009a008413ba60019a006e008a080100000000008573730a0a0546147f000000000000020002780e0e4b503b4141330247,
  0x10074000000000000000806c0400880009a008413fa60023f008200f1480100000000008573730a0a0546147f0000000000000300032d0e0e5f6e4f555f470248,
  0x4b000000000000000892e0012400119a00a43b862000c3003c00430204004f000000209d2205050046147f000000000000004001be0b0032284b323c3c0249,
  0x200900000000000000018b2e0052c00119a00a43bc620039d00be00a605040052000000209d2205050046147f0000000000000008024b0b00463c5f466450024a,
  0x3b000000000000001813c001a021809a8085978a20003200280096080100000000004e090905050046147f000000000000008002c8020c3c4b673c4b37024b,
  0x43000000000000001802cd0c0000309a8084130220003b0032003f01010000000000633d44030300460f7f000000000000000401c806062d283c2d4b32024c,
  0x10064000000000000001822cd0c0800389a8084134220014a006400ad070100000000008e4b44030300460f7f0000000000000008024b0806693c14698746024d,
  0x28000000000000000882e0002200109a0884330720000a0014003b08010000000000901b1b07070046147f000000570056000101be030b37370f2d3745024e,
  0x4b000000000000000882e0002a00109a08843347200069003c00a248010000000000901b1b07070046147f0000005700560002024b030b50551e465572024f,
  0x1006f000000000000014d0ad0102010509a0ab41b3a60014a007800430801000000000006820b0b0b0046147f000000000000040001be070a5541283228370250,
  0x2009d000000000000014d0ad0102810509a0ab41b7a60054600dc00a80801000000000006820b0b0b0046147f0000000000000800023c070a69553c463c640251,
  0x1006f000000000000014802c0100000409a00b41bb268013c007800a509010000000000905d830c020446287f0000000000000002024b0a0a2d2841504ba50252,
  0x1b000000000000001812cd09a00110ba00849382200006000a004002010000000000447f0e03030046147f000000000000004001be0c06323941322f320253,
  0x10058000000000000001812cd09a80110ba008593c220008f005000a502010000000000447f0e03030046147f0000000000000080024b0c063c616c3c4d460254,
  0x4b0000000000000008a6c8033280108a0084b1062100bc003c003d07010000000000a0a0a00a070046147f000001200000001001ff080b56180a5b322c0255,
  0x100640000000000000098a6e8273b80108a9085b14621044c006400ab070100000000006ba0a00a070046147f0000012000000020025a080b743614835e4a0256,
  0x32000000000000000836c0019001008a108491422000d2001e003c470100000000001d3a390a0a034614ff0000000000000010018208083c2d1e4637280257],
  [0x4b000000000000000836c0019001008a108491422001fe003c009a470100000000001d3a390a0a034614ff0000000000000020023c08085546325f503c0258,
  0x4b00000000000000083ec0019801008a1085914220032a003c00ea470100000000001d3a390a0a034614ff0000000000000030031e080855465a73643c0259,
  0x280000000000000000000001000100000000000000000300140037080100000000001a1a1a0b0b0546147f000000000000004001be0c0c282d3c283723025a,
  0x1006f000000000000000817c001a021009a008593822000dc0078008e010100000000001a1a1a0b0b0546147f0000000000000008023c0c0c464b28465541025b,
  0x20099000000000000009a37e281a821009a44c593c233032500d200e8010100000000001a1a1a0b0b0546147f000000000000000c031e0c0c506932507355025c,
  0x4300000000000000090ad091204115ba41b49b822c005a0032004301010000000000941c8c08080046147f000000000000010001ff0d0d37551e373737025d,
  0x1006400000000000000090ad091284115ba41b49bc22c0159006400aa05010000000000941c8c08080046147f0000000000000200025a0d0d5f7d284b4b4b025e,
  0x3200000000000000090ad010225412be24b4390e28001f001e0037480100000000009731120b0b0346147f000000000000010001be0907374114371e32025f,
  0x4b00000000000000090ad010225412be24b4390e280082003c0082040100000000009731120b0b0346147f0000000000000200025a09073c5f373c283c0260,
  0x1006400000000000000090ad0102a5412be24b4394e280157006400ea040100000000009731120b0b0346147f0000000000000300032d09075a91505a373c0261,
  0x4b000000400000009822c9040a04a09ac08c130e3300b4003c0040030100000000007f684f0e010523287f0000000000000004014b0f0f281e393c572e0262,
  0x10064000000400000009822cb040b04a09ac08c130e33016800640090030100000000007f684f0e010523287f0000000000000008023c0f0f3228434675420263,
  0x2008c00000040000000d822eba40b04a89ac0ce134e33041f00b400f3020100000000007f684f0e010523287f000000000000000c032d0f0f463c615a934c0264,
  0x4300000000000000da22e0400100819ac08c13326100550032003d080100000000009b515105050046147f000000000000000401780e0e283c282846370265,
  0x200ac00000000000000da22e0e44900899ac0cc137af10a28010400aa0801000000000021515105050046147f0000000000000008023c0e0e504632506e5f0266,
  0x1006a000000000000000806c84000a0009a018433f26005c8006e00aa010100000000001a1a1a0a0a004619ff000000f60000080002190e0e875f691e32460267,
  0x3b000000000000000802c4080000109a0884130320004d0028003d000100000000008e4b5d030300460f7f000000000000001001c806064128195528320268,
  0x10058000000000000000803c4080800189a188413432000fd005000ad00010000000000543c5d030300460f7f0000000000000080024b06063c64912846500269,
  0x52000000000000004802c4a16200409a5a8f930220006e004600a5050100000000000807090b020046147f000000ed00000002024b0c0463512054426d026a,
  0x1005e000000000000008a23e894462088dac1cc130ea800c8005a00460201000000000078902708050346197f000000000000000401b4010132374132552d026b,
  0x10079000000000000008a23e8944e2088dac1cc134ea80163008c00b30601000000000078902708050346197f0000000000000008022d01013c5f693c7d41026c,
  0x1008300000040000000db66c2a00f05889bcc8e534e33056e00a000aa00010000000000687d18010e00461e7f000000fa00000008022d0f0f5a3c305a784d026d,
  0x10064000000000000008a22e0a2300088ea40f61b122003980064003d430100000000006367590a0a004619ff0000010d0000000401be0704322323324a3b026e,
  0x200b400000000000000aa26e0a2780188ea40f6bb52200ce4011800a9430100000000006367590a0a004619ff0000010d00000008025a0704503737507c59026f,
  0x43000000000000001b62e9051740a0fbd0cc130a21006600320044000100000000002e278008080023147f00000000000000040178081028283c46552d0270,
  0x10083000000000000001b62e9055f40a8fbd0cc134a2102bc00a000ac000100000000002e278008080023147f0000000000000008022d0810463c46647d410271,
  0x1008300000000000000d832c8a44e00009ac086130e2003b200a000ac050100000000002b9d7805050046147f0000000000000008022d00005f28375f6e5f0272,
  0x4300000000000000b823c0800502049ac0841706a100690032004608010000000000377d33040405461400000000000000000401be020032253c3253460273,
  0x1007e00000000000000b823c0800d02049ac0841746a1019a009600b300010000000000807d330404054614000000000000000008023c02004b39504b7b640274,
  0x43000000000000003963c010064404bbc0a4170e20005a0032004a05010000000000858e910404052314fe000000000000001001be0210412d3c4b37460275,
  0x1006f000000000000003963c0100e4404bbc0a4174e20018b007800b305010000000000858e910404052314fe0000000000000200023c02105f375069416e0276,
  0x10079000000000000001a22c000091488bae48c330e210244008c00a94001000000000049125205050046147f0000000000000200025a09094269414261550277,
  0x32000000000000009826c1895d00109ad08c110221014a001e00a90701000000000036374403030046147f0000000000000020025a080630306d706d3a0278,
  0x10058000000400000008922c211000400bb0084130e3000ad0050003c010100000000003737370e0e0523287f0000000000000004012d0f10322d263241340279,
  0x10079000000400000008922c211000400bb0084130e3001f4008c0093010100000000003737370e0e0523287f0000000000000008022d0f1046413a465548027a,
  0x2008c00000040000000e927c2b14a250dbb6586174e30064000b4010e010100000000001a1a1a0e0e0523287f0000000000000300032d0f105a7d625a695c027b,
  0x1006a000000000000000813c0080034028e24943986280120006e00480801000000000044313103030546287f0000000000000004012d090637323c375537027c,
  0x10083000000000000002813c8080834028ea4943dc62801cc00a000f80801000000000044313103030546287f000000de00de0300030f0906698764413c55027d,
  0x20099000000000000009826c915dc00288a9184194a3909c400d20105010100000000009a9a9a0f0f052350ff000000000000003003030108485a6c815a5b027e,
  0x20090000000000000009822c9b45c00288ad186594a380a2800be0105070100000000009a9a9a0f0f052350ff000000000000000c030301055a486c5a815b027f,
  0x200940000000000000098a2e1146c00388a818439ce3807d000c80105030100000000009a9a9a0f0f052350ff0000000000000c000303010b815a6c485a5b0280,
  0x1007e00000000000000a923e0000a6688bb8ad4534aa00276009601050302005502e800809e9e0f0f055a7800000000000000000c03030202507d6f46734f0281,
  0x1007e00000000000000a937e0018a4788bb0ad5d34aa00262009601050102005602e900809e9e0f0f055a7800000000000000000c0303020c507d6f46734f0282,
  0x2003c00000040000000b822c2804b148f8e65b43dc6230ce40140013208010000000000a3a3a30f0f050078ff0000000000000300032d090f78965a6478640283,
  0x200b700000040000000b836c281eb018d8a41b59fc2230d7a0122013204010000000000a4a4a40f0f050078ff000000000000000c032d0c0f64785a7896640284,
  0x1007e00000000000000a823e0a45a80889a5ade5142a802a80096010e0502005702ea007d9f9f0f0f055a78000000000000000300030302045073655a7d590285,
  0x200bb00000040000000b826c2804b008d8a41b41ff6630cb2012c01294703005802e5002e2e2e0f0f050078ff000000000000010503030e0f5a825f5a827d0286,
  0x1007900000000000000d822c9144c00688a81841b4a7801e5008c01050202005a02e7009a9a9a0f0f052350ff00000000000003000303010a5a816c5a485b0287,
  0x4b000000000000008e2bf0116f6199ca00f59bc62d0041003c010e4802005b02e4002020200f0f056478ff0000005b005b054003030d0080805a4d4d640288,
  0x1007e000000000000002907c5093981108e8595b1f22103390096010e0605005c0000005858580f0f050078ff0000000000000144030308065f78635f78470289,
  0x20028000000010000009aa2e8a6670090dac9cc710eb0005a0028003f03010000000000ab414105050346141f0000000000000010012d0b0b2d3026413d38028a,
  0x2005a000000010000009aa2e8a6670090dac9cc710eb101220046008e03010000000000ab414105050346141f0000000000000020022d0b0b3a38395f4e3d028b,
  0x200aa000000090000009aa2e8a66f0098dac9ce714eb3038400a000ef03010000000000ab414105050346141f0000000000000030032d010b4b4a407a6b58028c,
  0x20032000000020000001a02f010005403be24943b8624005e0028003d00010000000000aa424205050346141f0000000000000100012d09093c3e3c282d28028d,
  0x2005a000000020000001a02f010005403be24943b862400910064008f00010000000000aa424205050346141f0000000000000200022d0909465a493a3b3b028e,
  0x200a0000000120000001a0af010085403be24b43bc62c0186009600f000010000000000aa424205050346141f0000000000000300032d0d0964726848454b028f,
  0x2002800000004000001da23e0800020c1bac08c533a200046001e003f01010000000000a8434302020346141f0000000000000040012d0a0a2c3e472838290290,
  0x2005000000004000001db23e0800020c1bac08c533a20006d003c008e01010000000000a8434302020346141f0000000000000080022d0a0a385361343f360291,
  0x200a000000024000001db23e0800820c1bac08c537a200190009600ef41010000000000a8434302020346141f00000000000000c0032d100a47677a435f480292,
  0x2002800000000000000dab3e0a0420080bb58ce5102a000320028002f0501000000005a25a735050500460f7f000000000000004001ff00002420392624260293,
  0x2006400000000000000dab3e0a44a0080bb58ce5142a001a8006400940501000000005a25a735050500460f7f0000000000000002027f04004d324e4d38550294,
  0x2001e000000000000002803c004002006be8084150e200011001e00380001000000003cb19191040403460f7f000000000000004001ff020026283e2b322d0295,
  0x20046000000000000002803c004003406bea484150e2000a0004600860001000000003cb13131040403460f7f00000000000000800278020934385437493e0296,
  0x20078000000000000002803c004083406bea484354ea100f5007800af0001000000003cb13131040403460f7f00000000000000c0022d0209454a7e47514e0297,
  0x2001e00000000000000000000000000000000000000000019001e00280414000000001e840e13030300460f7f000000000000001001ff0606191b232823260298,
  0x2003200000000000000000000000000000000000100000054001e004b0414000000001e843d3d030300460f7f0000000000000020027806061e1b1d3c162d0299,
  0x20078000000000000000803d418282010ba80943fc62800aa007800b90414006000001e840e13030300460f7f0000000000000141032d0206325a59323450029a,
  0x20050000000000000008972c020061403be248c330e300087003c004a05010000000000997f4f0505034614e1000000000000010001dc00093649483a323e029b,
  0x200aa000000000000008972c0200e1403be248c334e30032f009600b105010000000000997f4f0505034614e1000000000000020002410009426d6a484456029c,
  0x20028000000000000000c82e0002000119a00943b06280001000a003d0805007300005ab4a6a60606004614fe000000000000040001e111114f3d2a27262c029d,
  0x20050000000000000000c82e0002000119a00943b062800090014008208060077031a5ab4a6a60606004614fe000000000000080002781111624b342f2d36029e,
  0x20096000000000000000c82e0002800119a00943bc6280064006e00f80805007c00005ab4a6a60606004614fe0000000000000c00032d11119a704b44414e029f,
  0x3200000000000000c8b2e0a00600109a00cc3306b00136005a00460501000000003cb39d9d05050046147f000000000000000101c80b0b393e3430414202a0,
  0x1006400000000000000c8b2e0a00e00109a80ce3346b0038e00aa00ba0501000000003cb39d9d05050046147f0000000000000002022d0b0b5161443e647b02a1,
  0x2002800000000000000db22e0a44700a1dbc8cc1306b00050003c00460801000000005a71685908050046197f000000db0000000401dc0101302e2b3e524302a2,
  0x200d200000000000000db62eda44f48a9fbc8ce134eb3055000d200ad0801000000005a71685908050046197f000000db000000080241100147453a4e7c5f02a3,
  0x20078000000000000004973e0012c01019a008c1306300118007800a5480a008002ed00a9a9a905050046147f000000000000004002a000005a41663c504b02a4,
  0x2001e00000000000000190ad0112201119b01949b862c0023001e00470701000000003c14973305050046147f000000000000004001be0d0d3c3f4436303e02a5,
  0x2003c000000000000001b0ad0112a01119b01bc9bc62c0055003c00a30802008902ec3c9e973305050046147f0000000000000080024b0d0d5153684c304a02a6,
  0x20050000000000000001826c0860500201a81c41302200014005000410501000000003c6363630a0a0046147f000000000000001001b4070825231c64502d02a7,
  0x20050000000000000001826c0860500201a81c4130220002d0050009d0501000000003c6363630a0a0046147f0000000000000020025a0708312d23966e3b02a8,
  0x200aa000000000000001826c0860d00209a81e4134620021200aa00ea0502008a03083cb0b0b00a0a0046147f0000000000000420032d070896323c96323c02a9,
  0x1e000000000000000c0ed0122001119b019493862800050014004409010000000032a5838306060046147f000000000000000101c81111413f173c344e02aa,
  0x1e000000000000000c0ed0122801119b019593c62c009b005000a209010000000032a5838306060046147f0000000000000002028c111159631d48486502ab,
  0x20028000000000000004c02d010200010ba04949b86280023002800440801000000001e54afaf06060046147f000000000000001001c81111393b3142303e02ac,
  0x20050000000000000004c02d010280010ba04949bc6280032005000a80801000000001e54afaf06060046147f0000000000000020028c11114b554856505202ad,
  0x2002800000000000000190ac090264080bb8594938e2800230028003a0101000000003c97157e0c020046147f000000000000000401be0d102e252d35363502ae,
  0x2009600000000000000190ac0902e4080bb859493ce2c01d6009600a90101000000003c97157e0c020046147f000000000000000802500d104b4449585c5602af,
  0x2001e00000000000000daa2eda45340e0bbdace5b3a2101360032003d0501000000001e7c61b509090046147f000000000000000401780a0538273243342a02b0,
  0x2008c00000000000000daa2eda45b40e8bbdace5b7aa303c0008200af4501000000001e7c61b509090046147f0000000000000008022d0a0556364473694802b1,
  0x20032000000000000014802c0000000409a0aa49303600049003200400501000000003c5b8f260e020046147f000000000000040001e10a033c3c1e3c3c3202b2,
  0x200b4000000400000014802c2000800489a0aa5934360032f00b400ad0501000000003c5b8f260e020046147f000000000000080002370f037b612c5a4b4102b3,
  0x20032000000000000015807c0840000409a0a8453132000530032004241010000000000b2b2b2090205460f7f000000000000010001e10a0a3f3a2c3e353202b4,
  0x20050000000000000015907c0840800489a0aa453532001610082006441010000000000b2b2b2090205460f7f000000000000020001370a0a59783b58494702b5,
  0x20032000000000000005913e2b1a00100da508d938220003c0032003a0201000000005a5e08570e010046147f000000000000004001be000c2b3d4621262c02b6,
  0x20064000000000000005913e2b1a80108da508d93c22000d2006400a80201000000005a5e08570e010046147f0000000000000140024b000c5e6d6d34373e02b7,
  0x20050000000400000008922c2a05000009ad0ce1106330104005000480501000000000005adad0e0100461e1f0000000000000004012d0f052d2d304d593a02b8,
  0x200fa000000400000008922c2a05800009ad0ce1146330a8c00fa00b60001000000000045adad0e0100461e1f0000000000000008022d0f053b454777795202b9,
  0x200820000000000000009a6d2f17001019a51849bf27800fc008200480101000000000075aeae010100461e1f0000000000000001012d0e053f432e323b4d02ba,
  0x2010e0000000000000009a6d2f17801019a51979bf27808ca010e00680101000000000075aeae010100461e1f0000000000000002012d0e055c633a484d7b02bb],
  [0x10064000000000000001c02c0102c00019a01ac1bc62c00eb006400b849010000000000b6383805050046231f0000000000000800022d1111826e3c41415f02bc,
  0x1006400000000000000ba23e9844e22acdbc0cc170ea100d7005000af0301000000003268540708080046147f000000dd00000008026402013f4a764b5c4e02bd,
  0x20014000000000000001813e001ac0180ba808d9306200016001400970201000000001e3935a706050046147f000000000000008002b4110c435165393a4302be,
  0x32000000000000000c8ac0927080008a51945986680039001e006407010000000050051d1d0a06054619ff0000000000000410013c110596323296323202bf,
  0x32000000400000000802c4800000009a0a84930620001c001e003c06010000000078b75d9d0e0e0523287f0000000000000400012d0f0f4b372823322d02c0,
  0x32000000400000000802c4800000009a0a8493362000af0050009e06010000000078b75d9d0e0e0523287f0000000000000800022d0f0f71533c354b4402c1,
  0x32000000400000008822c6a00804089a2e8793766005e100c8010e06010000000078b75d9d0e0e0523287f0000000000000c00032d0f0f966e5046645a02c2,
  0x64000000000000001c06c011080000bb01941bc62c001e001400a5470100000000c8aa9e9e0a0a0446147f0000000000000010024b110857504b5b503902c3,
  0x200280000000000000099aaf8a0011010ba01bc39062000460028003e050100000000788b771e0b070046147f000000000000000401780b073c322630462b02c4,
  0x20096000000000000009baaf9a0091018ba01be39462902c6009600a6050100000000788b771e0b070046147f0000000000000008023c0b075241384c6e5502c5,
  0x200140000000000000009aaf082209510be2cb43986200032002800430504008b03145a0f77350b0b0046147f000000000000001001780b07372c3346423102c6,
  0x2005a0000000000000009aaf082289518be2cb439c620007d005a00ad0504008e03175a0f77350b0b0046147f0000000000000020023c0b074b3a547a5a4102c7,
  0x200c800000000000000c826c0c27000009a40841b326003e30064003d0101000000001e05731401010046147f000000000000001001be0e0e23201c55453702c8,
  0x200c800000000000000c826c0e27800009a40861b727013ba00c800b40101000000001e05731401010046147f000000000000002002370e0e2e2c1cb8755f02c9,
  0x3c000000400000003913d100012005bb80f4350e200050003200310601000000003c8c977704040046147f000000000000004001be0f02282d37231e2802ca,
  0x3c000000400000003913d10009200dbb84f4354e230352009600bb0601000000003c8c977704040046147f0000000000000080022d0f0250617b50465502cb,
  0x200c8000000000000001c86e0912800098a019593c67c0866012c013201020091000000bbbbbb0f0f050078ff0000000000000003032d11116283635f837e02cc,
  0x200c8000000000000003943d08009620cab80b4174e2307ee0244013200010000000000bababa0f0f050078ff0000000000000003032d02106283635f837e02cd,
  0x200c8000000400000008822e2a04800088a12ce1946200bea01f4010e43010000000000bcbcbc0f0f050078ff00000000000000030303040f5f515f79646c02ce,
  0x32000000000000000c8ac0927880008a519459c66c00580046010e090100000000501d1d1d0f0f054619ff00000000000008100303110596643296643202cf,
  0x3c000000000000000a0af011284998ab01f49bce2c005a0032010e06010000000000aaaaaa0f0f056478ff00000000000003000303070d8296463c6e5002d0,
  0x200c8000000000000009826c0a24894ca8e3ec6714630079e00aa010e050100000000000b0b0b0f0f056478ff000000000000030003030a095a8246786e5002d1,
  0xaa000000000000009b2ef891280198cbc1f5bbde2c026000aa010e000400000000002e2e2e0f0f050078ff000000000000010803030d0d14b49614b43202d2,
  0xaa000000000000009b2ef891280198cbc1f5bbde2c026000aa010e000400000000002e2e2e0f0f050078ff000000000000042003030d0da0465aa0463202d3,
  0xaa000000000000009b2ef891280198cbc1f5bbde2c026000aa010e000400000000002e2e2e0f0f050078ff00000000000000c003030d0d5a5fb45a5f3202d4,
  0x32000000000000000802d438280000ba50be1b4720004100320094070300000000008e6b6b030300460ffe000000de00000020022d0406553b24694f3c02d5,
  0x32000000000000000806d41a280000ba00b41b4720004100320094070300000000008e6b6b030300460ffe000000de00000410022d08065f45245f453c02d6,
  0x28000000000000000c82e0142800108a009439462000340028010e430200000000002020200f0f036478ff0000009d009d00c0032d020b4b787f4b676402d7,
  0x2b200000040000000b922d2314b11158a80b79b463b196402b20132040200000000001a1a1a0f0f050078ff000000000000000303030f0764785a64789602d8,
  0x1e000000000000000902d011a01100aa01a59386200003001e00b6000600000000001a1a1a0b0b004614ff0000000000000140022d090c6b69566b413202d9,
  0x1e000000000000000902d011a01100aa01a59386200003001e00b6400600000000001a1a1a0b0b004614ff0000000000000140022d0a0c6b69566b413202da,
  0x1e000000000000000902d011a01100aa01a59386200003001e00b6000600000000001a1a1a0b0b004614ff0000000000000140022d0e0c6b69566b413202db,
  0x1e000000000000000902d011a01100aa01a59386200003001e00b6000600000000001a1a1a0b0b004614ff0000000000000140022d020c6b69566b413202dc,
  0x1e000000000000000902d011a01100aa01a59386200003001e00b6000600000000001a1a1a0b0b004614ff0000000000000140022d0b0c6b69566b413202dd,
  0x1e000000000000000802c011240450ba34a5b336600008001e0093080400000000003b3b3b0b060046197f000000f300f30001022d090946464646464602de,
  0x1e000000000000000802c011240450ba34a5b336600008001e0093080400000000003b3b3b0b060046197f000000f300f30001022d0a0a46464646464602df,
  0x1e000000000000000802c011240450ba34a5b336600008001e0093480400000000003b3b3b0b060046197f000000f300f30001022d0e0e46464646464602e0,
  0x32000000000000000c82e0042800109a0084394620005d0032009e090200000000007a7a7a07060046147f000000ef00000200024b0b0b4e5755463c4602e1,
  0x64000000000000015802c0000000409a0084131a6000b4006400a103020000000000685b450c0c0046287f000000e30000008002190a0a375062415c4602e2,
  0x82000000000000008a23e0a24a148abf64de714eb003a1008200bd00020000000000a17d7d05050346147f0000000000000200023c0d09698c37691e6902e3,
  0x3c000000000000008e2bf0116f6199ca00f59bc62d0041003c010e480200000000002020200f0f056478ff0000005b005b0054030301004d4d805a806402e4,
  0x12c00000040000000b826c2804b008d8a41b41ff6630cb20168013b47030000000000a3a3a30f0f050078ff000000000000030003030e0f64aa5f5a787d02e5,
  0x12c00000040000000b826c2804b008d8a41b41ff6630cb2014a013b47030000000000a4a4a40f0f050078ff000000000000000c03030e0f5a785f64aa7d02e6,
  0x8c00000000000000d822c9144c00688a81841b4a7801e5008c0105420200000000009a9a9a0f0f052350ff00000000000003000303010a5a816c5a485b02e7,
  0x9600000000000000a923e0000a6688bb8ad4534aa00276008c0105030200000000009090900f0f055a780000000000000000c0030302025a6e7950644f02e8,
  0x9600000000000000a937e0018a4788bb0ad5d34aa00262012c0105010200000000000a0a0a0f0f055a780000000000000003000303020c50916546694f02e9,
  0x9600000000000000a823e0a45a80889a5ade5142a802a80082010e050200000000001616160f0f055a7800000000000000000c0303020450695b5a915902ea,
  0x96000000000000008f2adc100bd098bb08f5934f200195008c010e060200000000001717170b0b0346147f0000000000001300032d03075faa8250413c02eb,
  0x3c000000000000001b0ad0112a01119b01bc9bc62c0055003c00a30802000000003cac973305050046147f0000000000000080024b0d0d5153684c304a02ec,
  0x78000000000000004973e0012c01019a008c1306300118007800a5480a0000000000a9a9a905050046147f000000000000004002a000005a41663c504b02ed,
  0x78000000000000004973e0012c01019a008c1306300118007800a5480a0000000000a9a9a905050046147f000000000000004002a000005a41663c504b02ee,
  0x78000000000000004973e0012c01019a008c1306300118007800a5480a0000000000a9a9a905050046147f000000000000004002a000005a41663c504b02ef,
  0x78000000000000004973e0012c01019a008c1306300118007800a5480a0000000000a9a9a905050046147f000000000000004002a000005a41663c504b02f0,
  0x78000000000000004973e0012c01019a008c1306300118007800a5480a0000000000a9a9a905050046147f000000000000004002a000005a41663c504b02f1,
  0x78000000000000004973e0012c01019a008c1306300118007800a5480a0000000000a9a9a905050046147f000000000000004002a000005a41663c504b02f2,
  0x78000000000000004973e0012c01019a008c1306300118007800a5480a0000000000a9a9a905050046147f000000000000004002a000005a41663c504b02f3,
  0x78000000000000004973e0012c01019a008c1306300118007800a5480a0000000000a9a9a905050046147f000000000000004002a000005a41663c504b02f4,
  0x78000000000000004973e0012c01019a008c1306300118007800a5480a0000000000a9a9a905050046147f000000000000004002a000005a41663c504b02f5,
  0xa0000000000000000c0af011281199bb01b49bce2c01e400a0011608020000000000b6b6b60b0b0523147f0000000000000300032d110d87a56441554402f6,
  0x8c000000000000008a32c021a801899a00c59bc2200267008c01130202000000000068686805010346147f0000000000000300032d0f0c6ea52d695f5a02f7,
  0xc80000000900000098a2e0242800119a088639c730061300f00119030200000000002f2f2f07010346141f0000000000000600032d030b787a507b645002f8,
  0xaa00000012000000ba22c2a409168f9ee4ce354633045100aa011d00030000000000b5b5b50e010346141f0000000000000300032d0f095582646f824e02f9,
  0xaa00000012000000ba22c2a409168f9ee4ce35463303ed00aa011d000300000000004646460e010346141f0000000000000300032d0209739f644e684e02fa,
  0xc8000000000000008a2af8b1685598cbf5f7bbfeec04f600e6015f060300000000005050500f0f050078ff00000000000003000303010d649a8264be6a02fb,
  0xc8000000000000008a2af8b1685598cbf5f7bbfeec014a0096015f060300000000000f0f0f0f0f050078ff000000000000030003030d0d78c28c46966a02fc,
  0xbe000000120000009a22c8a449348bdee4ce3146b1020800be011c0002000000000003030305050346141f000000000000000c032d010950826450a05002fd,
  0x82000000000000008a22f8902c0098da41f413c6ac013b008200b30002000000003c4a4a4a08080046147f0000000000000080025a0d0155506455643c02fe,
  0x8c000000000000008962d0000e5402bf2ca4314e3001ef00be00d20402000000005a5e5e5e05050523147f0000000000000200022d09105a8c735a5a4b02ff,
  0xd200000000000000db26c2a15b04889af4cff37e330f6e00dc011c070200000000006f6f6f01010523237f000000ee00000030032d0808503c32e68c460300,
  0x6e000000000000000d0ad4112b5180bb00b5934e280082007800c20402000000005a9e9e9e0b0b0423197f000000f700000008022d0707535d4b4ba5400301,
  0xc800000000000000db62c2a15f04889bf4cfd37e3309f600fa013b030200000000002d2d2d01010523287f000000000000000c032d1005785f4796a4640302,
  0xb4000000000000009827c10c0820a4ba90c41fc72004e200c800d20002000000000065656503030046197f00000000000000080219080664414b8c96460303,
  0x96000000000000009822c1ac4800a8ba40ce5346a0024e00aa00d205020000000000b8b8b803030546197f0000000000000008022d02065a4169789b410304,
  0xb400000000000000a822c0a05a0604bbf486574e33031600d200d706020000000000b5b5b504040546231f0000000000000080022d02055f46965587500305,
  0x78000000000000008b26c8a44f0088da40fe1346b9023f008200db010200000000005b5b5b08050346191f0000000000000104022d0801468c705891460306,
  0xdc000000000000008822e0e42800989a40e63bf260073a010e00d00802000000000075757507010546147f000000f600000104023c0e0b69841e69845a0307,
  0x200aa000000000000001826c0860d00209a81e4134620021200aa00ea0502000000003cb0b0b00a0a0046147f0000000000000108032d070832963c32963c0308,
  0xa000000024000001cb26c2a20800c89a40ce53727003f300a0011c01020000000000b2b2b202010346141f0000000000000c00032d0a0a73874e78674f0309,
  0x2009d00000000000000da22c0a00d0488baf4efbb767003e800dc00cf05020000000096b9b9b90101004614fe0000000000000002022d0000643c64647d69030a,
  0x2012300000000000001c922c2214a04409b3487937a700bea028a00e00102000000003c6868680e0c0546057f0000000000000008022d100a8246516d9b5f030b,
  0x1006f000000000000009962d1956f1521bbf4a5937e6901ea007800c6480200000000009c9c9c05050323197f0000000000000008021e10103c73733c9641030c,
  0x1007e000000000000000c0af011284198bb01b41bce2c01e00078010a0502000000000024242408080346143f000000f80000030003320d0d5faf96413237030d,
  0x1007e000000000000009822c0ac4d00a8bac0ce5347a0027100aa00d2010200000000005c5c5c03030546197f0000000000000008022d010669284b73b950030e,
  0x4b000000000000008b26e0944a45a89b7ce4335e2000eb006400a80402000000000025252506050446147f0000000000000014022d11085f37327d6932030f,
  0x1007e000000000000008852c001a80102ba048593c23001b800b400c90202000000005a16161605050546147f0000000000000080022d0c0c508787504b460310,
  0x2009000000040000000d822caa44904a09af4ce13463303b600be013b010200000000009f9f9f0e010546287f000000000000000c032d040f5f785c73aa6c0311,
  0x20094000000400000017802f0312d01149a91b7bfd63f02bc00e6013b010200000000001a1a1a0f0f055a7800000000000000030003030d0f78a06e6482500312,
  0x10079000000400000017802f0312d01149a91b7bfd63f020800b4013b000200000000001a1a1a0f0f055a78fe0000000000000c0003030d0f968c6e7864500313,
  0x200140000000000000009aaf082209510be2cb43986200023001e00430504000000005a0f77350b0b0046147f000000000000001001780b07372c3846422c0314,
  0x200140000000000000009aaf082209510be2cb4398620004b003200430504000000005a0f77350b0b0046147f000000000000001001780b07372c2e4642360315,
  0x200140000000000000009aaf082209510be2cb43986200096005000430504000000005a0f77350b0b0046147f000000ef00ef001001780b07372c2946423b0316,
  0x2005a0000000000000009aaf082289518be2cb439c620005f004600ad0504000000005a0f77350b0b0046147f0000000000000020023c0b074b3a637a55370317,
  0x2005a0000000000000009aaf082289518be2cb439c620008c006e00ad0504000000005a0f77350b0b0046147f0000000000000020023c0b074b3a457a5f4b0318,
  0x2005a0000000000000009aaf082289518be2cb439c620018600aa00ad0504000000005a0f77350b0b0046147f000000ef00ef0020023c0b074b3a367a64550319,
  0x20050000000000000000c82e0002000119a00943b06280009001400820806000000005ab4a6a60606004614fe000000000000080002781111624b342f2d36031a,
  0x20050000000000000000c82e0002000119a00943b06280009001400820806000000005ab4a6a60606004614fe000000000000080002781111624b342f2d36031b,
  0x20050000000000000000c82e0002000119a00943b06280009001400820806000000005ab4a6a60606004614fe000000000000080002781111624b342f2d36031c,
  0x20050000000000000000c82e0002000119a00943b06280009001400820806000000005ab4a6a60606004614fe000000000000080002781111624b342f2d36031d,
  0x20050000000000000000c82e0002000119a00943b06280009001400f30806000000005ab4a6a60f0f004614fe000000000000080002781111807d5c43414a031e]]

/-- resources/bin/personal/personal_ao, 826 pieces of 80 bytes -/
def personal_ao : List Nat := List.flatten [
  [0xff0000000000000000000000000000000000000000,
  0x20020000040f0000000000000040000000520000000100000298a2e0042000119a08843987200045004600400301000000000022414107010346141f0000000000000100012d030b41412d31312d0001,
  0x20020000040f0000000000000040000100640000000100000298a2e0042000119a088439872000820064008e0301000000000022414107010346141f0000000000000500022d030b50503c3f3e3c0002,
  0x22020000040f0000000200000040000200940000000900000298a2e0242800119a088639c73003e800c800ec0302000002f80022414107010346141f0000000000000600032d030b6464505352500003,
  0x20000000201200014000000030000000004b000000020000029a22c0840114839ee4cc1106230055003c003e000100000000005e42420e010346141f0000000000000040012d0909323c412b34270004,
  0x20000000201200014000000030000001006a000000020000029a22c0840114839ee4cc11062300be006e008e000100000000005e42420e010346141f0000000000000140022d09094150503a403a0005,
  0x22000000309200014000000030000001008700000012000002ba22c2a409168f9ee4ce354633038900aa00f00003000102f9005e42420e010346141f0000000000000300032d0209556d644e544e0006,
  0x20000000a00200016c40000040000000004300000004000007ca22c0020000c09a40cc133260005a0032003f010100000000002c434302010346141f0000000000000010012d0a0a40322b41302c0007,
  0x20000000a00200016c40000040000001006400000004000007ca22c0020000c09a40cc13326000e10064008e010100000000002c434302010346141f0000000000000410022d0a0a50413a503f3b0008,
  0x22000000a00200016c40000040100001008300000024000007cb26c2a20800c89a40ce537270035700a000ef010200030309002c434302010346141f0000000000000c00032d0a0a69554e64534f0009,
  0x20000020000000001000000320000000000000000000000000000000000000000001d001e002703010000000000321313030300460f7f000000000000000101ff060614142d231e2d000a,
  0x24000000001000000520000000000000000000000000000000000000000006300460048030100000000003d3d3d030300460f7f00000000000000200278060619191e371432000b,
  0x60000000148200000200000000110001006a000000000000000823d418282010ba80b43f47200140006e00b2080100000000006e0e0e030300460f7f000000de00000600032d0206505a46322d3c000c,
  0x200000000010000003200000000000000000000000000000000000000000020001e002705010000000000321313030300460f7f000000000000004001ff03061414321e2328000d,
  0x240000000010000004b00000000000000000000000000000000000000000064003c0048020100000000003d3d3d030300460f7f00000000000000200278030619192332192d000e,
  0x210000001486000002000000008100010064000000000000021823cd0c2a2020ba88c43547200127006400b202020004033900614444030300460f7f000000f500000408032d0306502d4b285a41000f,
  0x200000001192000000000000080000000032000000000000002823c000000004ba80841706200012001e00320501000000005a914d33040403460f7f000000000000004001ff0200232338282d280010,
  0x20000000119200000000000008000001006a000000000000002823c000000004ba8084170620012c006e007a05010000000000914d33040403460f7f000000000000008002780200323247373c3f0011,
  0x20000000119200000000000008000001007e000000000000002823c000080004ba8084174620018b009600d805020005032800914d33040403460f7f00000000000000c0032d02004646654b50530012,
  0x210000004002000124800000080600000032000000000000021833e001040100ba00ad933e200023001e003306010000000078373e32050500460f7f000000000000004001ff000023194823381e0013,
  0x210000004002000124800000080600000052000000000000029833e0050c0100ba00ad937e3000b9004600910501000000005a373e32050500460f7f0000000000000080027f00004632613c51370014,
  0x200000001192000000000000088000000032000000000000002823c000000025ba80841706200014001e00340501000000005a613333040400460f7f000000000000004001ff02001f1f461e3c280015,
  0x20000000119200000000000008800001006f000000000000002823c000080025ba8084174620017c0078009b0501000000003c613333040400460f7f000000f400000080025a02003d3d64415a410016,
  0x280500000403000118000000044000020094000000000000008922cca0020000bb4a8e130720004500c8003a060100000000787f3d160e050046147f000000000000000401ff03033628372c3c230017,
  0x2805000004030001180000000440000200cc000000000000008922cea00a0000bb4a8e134720028a015e00990601000000003c7f3d160e050046147f0000000000000008025a03034f415045553c0018,
  0x20100000600600010220000010120000003b000000000000028832e001a001819a00cd938220003c0028007002070006032f001f0909060500460a7f000000ec0000008002be0c0c32325a2837230019,
  0x201000006006000102200000101200010058000000000000028832e001a80189ba00cd93c220012c005000da020100000000001f0909060500460a7f00000000000000c0034b0c0c505a6e375a3c001a,
  0x30000000200600010004000000060000004b000000000000029822c9a6010080bad0ce1906210078003c003c0201000000005a92080805050046147f0000011e0000001001ff04041e1428554b32001b,
  0x300000002006000100040000000600010064000000000000029822c9a6490088bad0ce19462101270064009e0201000000003c92080805050046147f0000011e00000020025a0404372d416e644b001c,
  0x20100000c00200010000000000040000003b000000000000029822c800010001ba888d9337210046002800370101000000005a374f260501034614fe000000000000000101eb0303282829342f37001d,
  0x20100000c002000100000000000400010058000000000000029822c800010001ba888d93372100c8005000800101000000003c374f260f0f034614fe000000000000000202780303373738433e46001e,
  0x32100000e00200014d04000078840001007400000000000002da22caa0490c89bbfeefd37f310258008200e3010100000000007d4f260f0f034614fe0000000000000003032d0403554b4c575c5a001f,
  0x20100000c002000100000000008400000043000000000000029822c800010001ba088d933721005a003200370601000000005a374f26050103461400000000000000000401eb030328283228392e0020,
  0x20100000c00200010000000000840001005e000000000000029822c800010001ba088d93372100c3005a00800601000000003c374f2605010346140000000000000000080278030337374139483d0021,
  0x32100000e00200014d04000078840001007900000000000002da22caa0490c89bb7eefd37f31026c008c00e3060100000000007d4f26050103461400000000000000000c032d04034b55554d66510022,
  0x3db80000e8660001a491000071120000004b000000000000028e22f0112405819a25fdbbb62c004b003c0071490100000000788462380606048c0abf000000510000000202961111413c23302d460023,
  0x3db80000e8660001a4910000711200010074000000000000028e22f0112c05899a25fdbbf62c0190008200d9490100000000006d62380606048c0abf0000005100000003031911115a5f3c49465f0024,
  0x20040000023200013008000000020000004b000000000000000922c0100214129e248c1906300063003c003c050100000000004612120505004614bf000000f90000004001be09094132412829260025,
  0x20040000023200013008000000020001006a000000000000000922d0100a14129e248c39463c00c7006e00b1020100000000004612120505004614bf000000f900000440024b09096451644b4c490026,
  0x3d100000ea66000084910000710200000043000000000000008e32f0132405819a25fdbbb62000370032005f4901000000007884ac38060604460abf000000000000000202aa1100192d14142d730027,
  0x3d500000ea66000084910000710200010064000000000000008e32f0132c05899a25fdbbf6200078006400c44901000000000077ac38060604460abf00000000000000030332110032552d2d468c0028,
  0x280000001492000020000000080400010058000000000000002823c000022004bb88a4170f20004b005000310601000000005a972727040400460f7f000000000000004001ff0203281e37232d280029,
  0x280000001492000020000000080400010083000000000000002823c0000a2004bb88a4174f20022600a0009f0601000000003c972727040400460f7f0000000000000080025a02034b415a46504b002a,
  0x200b0000040a000000000000004000000043000000000000001ca2e4042000109a08843107200036003200400101000000005a32222207070346147f000002210000010001ff030b414b1e37322d002b,
  0x200b00000c0a000000000000004000010058000000000000001ca2e4042000909a088431072000560050008a0101000000003c01222207070346147f00000221000002000278030b4b552846413c002c,
  0x200b00000c0a00000000000000400001006f000000000000001ca2e4042800909a088439472000ba007800dd000100000000001b222207070346147f0000022100000300032d030b5a6e3255504b002d,
  0x200a0000040e0000000000000041000000320000000000000218a2e10c200030ba88cc3187210036001e00390001000000007806571b07030046147f000000570056000401be0b06372d19374623002e,
  0x200a0000040e0000000000000041000100640000000000000218a2e10c280030ba88cc31c72101270064008e0001000000005a06571b07030046147f0000005700560018024b0b06503c1e505f3c002f,
  0x600000000402000020000000001100010064000000000000000822c408200000ba0894310720012c0064003d06010000000000326e0e03030046147f000000000000040001be030637282d32373c0030,
  0x60000000148200002000000000110001007e000000000000000823c408282010ba8894354720007d0096009e06010000000000936e1303030046147f0000012700000140024b03064b5a5a3c41460031,
  0x300000000002000000040000000000000028000000000000021822c0a0010001bad88e110621000800140035050100000000789f470805050046147f000000ed0000104001ff04042d235f19370a0032,
  0x300000000002000000040000000000000052000000000000021822c0a0490001bada8e114621014d0046008e050100000000009f470805050046147f000000ed00001080023204044632783250230033,
  0x28040000c0060001948800000c420000003b000000000000001923d010270001bb80ad930e21002a0028003a020100000000007f653505050046147f000000d90000004001ff000028285a232d280034,
  0x28040000c0060001948800000c4200010064000000000000001923d0102f4001bb80ad934e3101400064009a020100000000007f650705050046147f000000d900000080025a00004141733c46410035,
  0x20820000a02200012c00000040100001005800000000000007ca22c0102100c09a80dc13b26d00c4005000400201000000005a210d0605020046147f000000000000010001be0a0a3241373034320036,
  0x20820000a02200012c00000042100001008700000000000007ca22c0102900c8da80dc13f26d02fe00aa00af0101000000003c210d0605020046147f0000000000000200024b0a0a505f554e52500037,
  0x2314000020220001000000007e4a00000043000000000000028a23c8a006208afac0cfd30ea101180032003d0501000000000080534805050046147f000000000000000401be01012d23462350280038,
  0x2314000020220001000000007e4a00010064000000000000028a23c8a04e208afac0cfd34ea101400064009f0501000000000080534805050046147f0000000000000008024b0101463c5f3c69410039,
  0x221000000012000100000000000200000052000000000000028872c000041402bea48c19063000be00460046050100000000009a121605050546143f000000000000000401be090932463c2d4637003a,
  0x221000000012000140000000002200020090000000000000028872c0200c1402bea48c394630060e00be00c2050100000000009a121605050546143f0000000000000008024b090950645f506e5a003b,
  0x21100000800200000400000000000000004b000000000000054822c000000040ba009c133260007c003c003c4101000000005a21060b02020346147f000000000000004001ff0a0a28285a283228003c,
  0x21100000a00200000400000040000001006400000000000007ca22c0200000c0ba00de13326000c8006400874101000000003c21060b02020346147f000000dd0000008002780a0a32325a414141003d,
  0x21100000a00200000400000040000001007400000000000007ca22c8a00a00c8fa40de1372e0021c008200e64101000000000021060b02020346147f000000dd00000030032d010a5a46465f5f5a003e,
  0x6ce00000682600012019000070100001005e000000000000000c2af011204190bb01b41b8e2c00c3005a003e0501000000007862271c08080346143f000000f80000010001c80d0d37695a0f1419003f,
  0x6ce000006826000120190000701000010074000000000000000c2af011204190bb01b41b8e2c02350082008c4501000000000062271c08080346143f000000f80000020002640d0d4678691e23280040,
  0x6ce00000682600012019000070100001007e000000000000000c2af011284198bb01b41bce2c01e0009600e10502000c030d0062271c08080346143f000000f80000030003320d0d5f87782d32370041,
  0x201000002026000001000000720800010058000000000000028a22c8a0060488fa64ce5386a000c30050003d0701000000005a50633e08080346143f000000e60000000401b401012323233250460042,
  0x20100000202600000100000072080001007e000000000000028a22c8a0060488fa64ce5386a002c10096008e4701000000003c50633e08080346143f000000e600000008025a01013c322d4664500043,
  0x201000002026000001000000720800010083000000000000028a22c8a04e0488fa64ce53c6a0051400a000e34701000000000050633e08080346143f000000e60000000c032d010155413750825a0044,
  0x20030000040f0000000000000040000000520000000000000018a2e404200010ba098431072000280046003c0301000000005a52222207070346147f000000000000000401ff030b1e4628234b320045,
  0x20030000040f0000000000000040000100640000000000000018a2e404200010ba09843107200040006400890301000000003c52222207070346147f00000000000000080278030b2d5537325a410046,
  0x20030000040f0000000000000040000100870000000000000018a2e404280010ba0984314720009b00aa00dd0301000000000052222207070346147f000000000000000c032d030b4664464169500047,
  0x20000000840700000401000000000001005e000000000000055c22cc04020040ba0a841b336001c7005a0043010100000000002c401d09090546147f000000f50000040001be030a6432462328280048,
  0x200000008407000004010000000000010083000000000000055c22cc040a0040ba0a841b7360022600a000b4010100000000002c401d09090546147f000000f500000800023c030a7850644146500049,
  0x30000000200200000146000030000000003b000000000000028aa2c0a25084809a74ce51062000c80028003c0501000000005a0805450a0a03460f7f000000e50000001001ff04051e1e14645028004a,
  0x300000002002000001460000300000010064000000000000028aa2c0a25084809a74ce510620041a006400890501000000003c0805450a0a03460f7f000000e500000020027804052d2d23735f37004b,
  0x300000002002000001460000302000010079000000000000028aa2c0a25884889a74ce5146300bb8008c00df050100000000000805450a0a03460f7f000000e500000030032d040541372d827850004c,
  0x200000000012000100000000030000010064000000000000008832c0000014039e2484310620012c006400520201000000007831123205050046147f000000000000004001be090941415a375532004d,
  0x200000000012000100000000038000010087000000000000008832c8000814039e248431462003b600aa00af0201000000000031123205050046147f0000000000000080023c0909505069466441004e,
  0x64a80000800200012c03000000100001006f00000000000004c82af0312004419a24be1bb66c01680078003f0901000000003c90140c02010046147f000001170000000101be0d0a28280f41415a004f,
  0x64a80000a80200012c4b000040100001008300000000000006c82af0312804c99aa4fe1bf66c031100a000ac0902000d03263c90140c02010046147f000000dd00000020024b0d0a50641e6e4b5f0050,
  0x240000004002000002710000001000000032000000000000000836c013a081008a0185938620003c001e00410701000000005a94052a0a0a004614ff000000e90000010001be080c375f2d4623190051,
  0x240000004002000002710000001000010064000000000000000836c013a881008a018593c6200258006400a30701000000003c94052a0a0a004614ff000000e900000200023c080c4678465f3c320052,
  0x201000001196000100800000080200010058000000000000003823c814042024ba808415062000960050007b0501000000007880273305040046147f0000010300000004022d02003e3a3c3741340053,
  0x210000001006000000000000080000010079000000000000002822c000000005ba80841506200188008c003e0501000000005a4d303204040046147f000000f40000000401be020023234b2d55230054,
  0x21000000110600000000000008000002008c000000000000002822c0000a0005bb8084154e20035400b400a10501000000003c4d303204040046147f000000f400000008022d02003c3c64466e3c0055,
  0x20000000800200010c00000000900001006a000000000000054822c000000081ba00841b32600384006e004108010000000000735d2f05020046147f000000000000040001be0a0a462d2d372d410056,
  0x20000000800200010c000000009000010087000000000000054822c040080081ba00841b726004b000aa00a608010000000000735d2f05020046147f0000000000000800024b0e0a5f464650465a0057,
  0x20000000460200000000000074000001005e000000000000008a22cc80028480bb6ead930f20012c005a00410601000000003c8f3c010b0b0046147f000001190000000101be03033228193250500058,
  0x20000000660200001002000074000001006f000000000000028b22cc800a8488bb6eed934f20012c007800af0601000000003c8f3c010b0b0046147f0000000001190005024b03036441324b69690059,
  0x200000008002000004400000000000000032000000000000044822c0000280009a00841332600028001e003d060100000000008e5c4b09090546147f000000590058001001be0a0a192d2864411e005a,
  0x20000000800200000440000000100001007e000000000000044822c8400a80009b0084137260052d009600b8060100000000008e5c4b09090546147f0000005900580020023c0e0a2d5546b45f32005b,
  0x68a400000606000014080000780000010074000000000000000d2ad41002d010bb08b4930f2000010082003e060100000000781a1a1a0b0b0346147f000000000000010001be03072364501e231e005c,
  0x68a400000606000014080000780000010083000000000000000d2adc1003d090bb08b4930f20000100a0008e0601000000005a1a1a1a0b0b0346147f0000000000000200025a030737735f2d322d005d,
  0x68a400002e2600001408000078000001007e000000000000028f2adc100bd098bb08f5934f200195009600e10602000e02eb001a1a1a0b0b0346147f0000000000000300032d03074b826e3c413c005e,
  0x3000000000030001400600000020000201590000000000000288a6c2b25280009b508e510e3008340370004d0701000000003c8505450a0a0046197f0000000000000010012d04052d1e46a02d23005f,
  0x6c6000002822000020090000721000010064000000000000000e2af011200080fb01f41b8e2c0144006400420201000000005a276c0f08080046147f000000000000040001be0d0d5a2b2a2d303c0060,
  0x6c6000002822000020090000721000010083000000000000000e2af011280088fb01f41bce2c02f400a000a90201000000003c276c0f08080046147f0000000000000800024b0d0d7349434649550061,
  0x20000000800600000540000000000000003b00000000000006d822c1840000e0ba40cc1332610041002800410001000000005a7d4b3409090046147f000000000000000401e10a0a1919325a691e0062,
  0x20000000800600000540000000000001007400000000000006d822c1840808e0ba40cc1372610258008200a64001000000003c7d4b3409090046147f0000000000000008023c0a0a32324b7382370063],
  [0x200000004002000000290000001000000043000000000000000832c003a08100ab0085938a20006800320042000100000000786a092b0a0a004614ff000000000000004001be0c0c373764321e280064,
  0x20000000400200000029000000100001006f000000000000000832c003a88100ab008593ca20029a007800a8000100000000006a092b0a0a004614ff0000000000000080023c0c0c50508c46323c0065,
  0x60020000040a00000012000008400000003b0000000000000088aaf414208010ba0994318620001900280041090100000000788b222207070546147f0000000000000010015a0d0b2d3c2850283c0066,
  0x60020000040a0000201200000240000200940000000000000088aaf414288010ba099431c62404b000c800b6020100000000008b222207070546147f0000000000000200022d0d0b417d37555f5f0067,
  0x3100000020060001044400003a200000003b000000000000028a22c0a40404a1baf4ce5136200041002800400501000000005a041f4501010046147f000001020000001001be04043228235f32320068,
  0x3300000020060001044400003a2000010064000000000000028a22c0a44c04a9baf4ce51762001c2006400950501000000003c041f4501010046147f0000010200000020024b040450322d6e503c0069,
  0x20100000202600000100000003020001007e000000000000028a22c8a0440088fa40c61306a001f20096009f050100000000005478070808004619000000000000000008022d01016e2357357832006a,
  0x201000002822000000000000720200010079000000000000028a22c0a0440088fa40c61306a001f6008c009f050100000000002759330808004619000000000000000800022d01016e234c4f6932006b,
  0x20000000e00700012c00000070000001006f00000000000002da22d2b40c0480ba74efb37620028f0078004d0901000000003c0d0c1401010046147f0000011700000002012d00004b3c1e4b375a006c,
  0x20040000420200001000000008000000004b000000000000000922c402229400bb2ca5930f20000a003c00440601000000005a1a1a1a0b0b0046147f000000e40000001001be03032d3c235f4128006d,
  0x20040000420200001000000008000001006f000000000000000922c4022a9400bb2ca5934f20005f007800ac0601000000003c1a1a1a0b0b0046147f000000e400000020023c030346553c785a41006e,
  0x31040000400200014d040000088000010064000000000000028822c8a4520400ba748fd33630047e006400450701000000005a78451f05010546147f0000000000000010017805041e1e195f5550006f,
  0x33040000600200014d06000078800002009000000000000002da22caa45b0488ba74cfd3763004b000be00aa0701000000003c78451f05010546147f0000000000000008023c05042d2d287882690070,
  0x7d100000e8420001a490000070020001006a000000000000028e32f0b12c05819a74f7bbf668015a006e018b0901000000005a83201e0606048c28fe000000e701000002021e00006923320505fa0071,
  0x21020000460f0000000000000040000100640000000000000218a2e414280010ba0984314620015e006400570101000000005a90662207070046147f0000000000000010012d0b0b28643c7337410072,
  0x23140000e80200010c0000007a020002009d00000000000002da22c0a00d0488baf4efbb7670032000dc00ac0502000f030a962771300101004614fe0000000000000002022d000050285a505f690073,
  0x22000000800200004400000001100000003b000000000000054826c0000000409a008413326000500028003b010100000000000661210e020046147f000000eb0000010001e10a0a19463c46281e0074,
  0x22000000800200004400000001100001006f000000000000054826c0000800409a008413726000fa0078009a010100000000000661260e020046147f000000eb00000110024b0a0a2d5f555f41370075,
  0x20000000800600000c00000001900000004b000000000000054822c8000000409a00841332600096003c00400001000000005a1f29210c0c0046147f000000f30000000401e10a0a32233f3c432d0076,
  0x20000000800600000c000000019000010074000000000000054822c8000800409a008413726001860082009e0001000000003c1f29210c0c0046147f000000f300000008023c0a0a504144415c500077,
  0x240000008202000004110000001000010058000000000000054c26c0132000408a019593b26001590050004445010000000000941e230909054614ff0000005b005a004001e10a0a374655372d1e0078,
  0x64a00000820200000411000000100001006a000000000000054c2ef0132800408a019593f2640320006e00b606010000000000941e230909054614ff0000005b005a0080023c0d0a556473554b3c0079,
  0x6cf000006822000024490000701200010074000000000000000e2af4112a0198bb81f5bbce2c0221008200a10901000000005a656f2b08080046197f0000000000000800022d110d78645a412d28007a,
  0x20000000108600000000000000010001007e000000000000021823c10c080024ba80c41fc6200230009600640301000000000050654403030046197f0000000000000004012d0206503769506e46007b,
  0x64700000a8620000a4010000401200010079000000000000000a2af0502a0099bb01f413fa6c0196008c009f00010000000000576c0c0808004619fe0000000000000200022d0d0e5f735f233241007c,
  0x201000006002000102200000721a0001006a000000000000028a32c001a80188fa00d593c220012c006e00ac4201000000007848090908080046193f0000014200000080022d0c0c555f69395341007d,
  0x201000002012000100000000320a00010074000000000000028a22c00008148afe24d411462001bd008200ad0001000000005a48313108080046193f0000014300000200022d090955645d395f41007e,
  0x30000000200700000140000000010001007e000000000000029822c1ac4800a8ba40ce5346a00226009600af0502001003040099683403030546197f0000000000000008022d0606463755647d41007f,
  0x23140000c02200012400000008200001007900000000000002c832c0a04e04009a7487b376200374008c00ac0501000000005a7d53160505054614000000000000000044022d000046286e5f644b0080,
  0x1000001005e00000000000000000000000000000000000000000064005a00280001000000005a9b21210e0c0546057f000000000000004001ff0a0a140f50370a140081,
  0x22040000800200015c00000009200002012300000000000007c922c2214a04409b3487937a70092e028a00bd01020011030b3c9916160e0c0546057f0000000000000008022d020a643c514f7d5f0082,
  0x22000000c0420001ec02000000b0000200a900000000000007c822d0600800019a00959b7270089800fa00bb0101000000003c5d4b0b02010546287f000000f300f30002022d0e0a5f553c5055820083,
  0x3200000000000000000000000000000000000000000028001e00650601000000005a9607070d0d004614ff0000010101120001022300003030303030300084,
  0x201000000042000180800000000200000032000000000000000822c0000400019a00ac1306200041001e0041050100000000006b5b3205050046231f0000000000000400012d0000412d373237370085,
  0x20100000804200018c80000000120001006400000000000007c822c0000c00419a00ac1376700122006400b8010100000000005d0b0b05050046231f0000000000000002022d0a0a5f6e413c41820086,
  0x201000004042000180a00000001200010058000000000000028832c001ac01019a00ad93c63000f5005000b8020100000000005f0a0a05050046231f0000000000000080022d0c0c5f6e823c41410087,
  0x20100000005200018180000000020001005e000000000000028822c0000c14039e24ac13463000fa005a00b8000100000000003e121205050046231f0000000000000008022d09096e5f413c82410088,
  0x24a000004202000126b9000000100001005800000000000000082ad011280100aa80b5b37624016d0050004f090100000000009458240a0a004614ff0000000000000100012d00004b5528463c410089,
  0x30000000800700000444000000000000003b000000000000074822c082100040ba5084533260004b0028004701010000000000854b21090200461e1f0000000000000010012d0a05375a23642823008a,
  0x300000008007000004440000000000010064000000000000074822c082580040ba5084537260015e006400ad01010000000000854b21090200461e1f0000000000000020022d0a054673377d3c46008b,
  0x300000008406000004440000000000000043000000000000034822c080100040bad08c53326100730032004705010000000000850421090200461e1f0000000000000010012d0a052d37375a501e008c,
  0x30000000840600000d4400000200000100740000000000000758a2c184580040bad0cc5372610195008200ad05010000000000850421090200461e1f0000000000000008022d0a0546415069733c008d,
  0x30000000119200014804000000200002008c00000000000002a822c0a05a0604bbf486574e33024e00b400b4060200120305007f2e4504040546231f0000000000000080022d02054b3c82416950008e,
  0x26080000e0020000a582000074620002009900000000000002ca32c0a00c04889a74f7f3762011f800d200bd04010000000000522f1101010546281f000000ea00ea0002021900006e411e416ea0008f,
  0x200000009182000004000000001000010087000000000000022823c0400802048a9184177670022a00aa010501010000000000512e2e0f0f052350ff0000000000000c000303020e7d5f5564555a0090,
  0x200000005192000000000000001000010083000000000000022833c001a803048a908597c630020e00a0010502010000000000092e2e0f0f052350ff00000000000003000303020c5a7d64555a5a0091,
  0x200000001192000000000000000000020094000000000000022823c0000816068eb4843f4630025800c8010502010000000000312e2e0f0f052350ff000000000000030003030209557d5a5a645a0092,
  0x22000000c00300014c00000000000002008c000000400000014822c2010004009a24859bf660002100b4003c010100000000783f3d3d0e020523287f000000eb00000004012d0f0f3232322d40290093,
  0x22000000c00300014c000000000000020032000000400000014822c2010004009a24859bf66000a5019000930101000000005a3f3d3d0e020523287f000000eb00000008022d0f0f46464641543d0094,
  0x22000000f09300014d00000070200002009d00000040000007fa22c2a148068c9af4c79ff673083400dc010e050100000000008827270e020523287f000000eb0000000c032d020f6464505f865b0095,
  0x6ce00000e82200012c190000721000020094000000000000068a2af8b1685598cbf5f7bbfeec04c400c801320603001302fb007f2e2e0f0f050078ff000000000000030003030d0d5a9a825a6e6a0096,
  0x7fff0000ffff0001ffff00007fff0000003b00000000000007ffffffffffffffffffffffffff00280028010e090100000000001c1c1c0f0f036478ff0000009d009d0003032d0d0d6464646464640097,
  0x20020000040a00010001000000400001005e0000000100000018a2e0042000119a01843986200040005a00400301000000000066414107010346141f0000000000000400012d0b0b41312d41312d0098,
  0x20020000040a00010001000000400001006f0000000100000298a2e0042000119a0184398620009e0078008e0301000000000066414107010346141f0000000000000410022d0b0b503f3c503e3c0099,
  0x22020000040a00010001000000400002008c0000000900000298a2e2242800119a018639c62003ed00b400ec0301000000000066414107010346141f0000000000000810032d0b0b645350645250009a,
  0x2000000000120000000000000002000000430000000200000018b2c0000014029ea48c110620004f0032003e0201000000000012424205050346141f0000000000000040012d0909323c412b3427009b,
  0x20000000201200000000000000020001005e0000000200000298b2c0000014029ea4cc11063000be005a008e0201000000000012424205050346141f0000000000000140022d09094150503a403a009c,
  0x200000002012000000000000320200010087000000120000029ab2c0a209148a9ee4ce314630031b00aa00f00201000000000012424205050346141f0000000000000300032d0909556d644e544e009d,
  0x20040000a00200010d0200004a000000004b000000040000055a22c0840100c09ac0cc133263005f003c003f010100000000007d434302010346141f0000000000000004012d0a0a302c2b404132009e,
  0x20040000a00200010d0200004a000001006a00000004000007da22c0840100c09ac0cc13327300fa006e008e410100000000007d434302010346141f0000000000000014022d0a0a3f3b3a505041009f,
  0x22040000a00200014d0200004a00000200a100000024000007da22c2a40900c89ac0ce137273037800e600ef010100000000007d434302010346141f0000000000000018032d0a0a534f4e64695500a0,
  0x20300000e006000188800000780600010058000000000000005a23e000050181ba04ecb31621003c0050002b05010000000078773332050500460f7f000000000000000401ff00002d2314222e2300a1,
  0x20300000e00600018880000078060002008c00000000000002da23e0000d0189ba04edb37621014500b400910501000000005a773332050500460f7f0000000000000080025a0000372d5a404c5500a2,
  0x2400000011920000a0010000080000000052000000000000002822d010000005ba81b417062000d4004600340501000000005a6e330f040400460f7f000000000000000101ff02003824321e1e3c00a3,
  0x2400000011920000a0010000080000010083000000000000002822d010080005ba81b4174620019800a0009b0501000000003c6e330f040400460f7f0000000000000002025a0200604c4632326400a4,
  0x200000003c86000000000000580100010064000000000000000a23c40c202080ba81cc3d8620006c00640035000100000000009b3044030304460f7f000000000000040001ff02065028371e142800a5,
  0x200000003c86000000000000580100010079000000000000028a23c40c282088ba81cc3dc6200164008c008900010000000000593044030304460f7f0000000000000800025a02066e375532233700a6,
  0x200000000402000002080000011100000043000000000000000822cd08200000ba089c31072100550032003203010000000000610f44030304460f7f000000000000000401ff030628281e283c2800a7,
  0x20000000040200000208000001110001006a000000000000000822cd08280000ba089c314721014f006e008900010000000000610f44030304460f7f0000000000000008025a03063c3c28465a4600a8,
  0x28000000159200003000000008040002008c000000000000002923c1000a2004bb88a4174f2002ee00b400f106010000000000972727040400460f7f00000000000000c0035a0203504682505a5500a9,
  0x20000000c042000004000000011000000043000000000000054c32c001a001409a0085933260007800320042010100000000000b230a0c0c0546147f000000e30000000101be0c0a38384326264b00aa,
  0x20000000c04200000c00000001100001006f000000000000054c32c001a801409a008593726000e1007800a1010100000000000b230a0c0c0546147f000000e300000002024b0c0a4c4c433a3a7d00ab,
  0x201000004002000102200000181200000032000000000000000832e001a001819a00859382200014001e0029020100000000001f09090f0f00460a7f000000000000004001be0c0c23233c0f281400ac,
  0x25b80000c0220001a4910000081200000032000000000000000822f0112004819a25bc3b8624001e001e002c490100000000008462380f0f048c0abf000000510000040001961111372d0f1c193200ad,
  0x25100000c262000084910000090200000032000000000000000832f0112004819a25bc3b8620000a001e002a4901000000000084ac380f0f04460abf000000000000000101aa110014280f0f1e5a00ae,
  0x21280000c0420000a0810000081200000032000000000000020c22f0112004819a25b43b8624000f001e0031080100000000006920370f0f04460a1f000000000000040001be111141281441142300af,
  0x21280000f8d20000a081000000120000004b000000000000022c22f0112c04859aa5f43fc6240020003c008e08010000000000692037060404460a1f0000000000000800024b021169502855283700b0,
  0x606000001792000020010000001000000028000000000000000c2bf011200004ba81b437862c001400140040030100000000009c301c04040046147f000000000000010001be020d2d46462d322800b1,
  0x60600000179200002009000000100001007e000000000000002c2bf011280004ba81b437c62c0096009600a5030100000000009c301c04040046147f0000000000000140024b020d465f5f464b4100b2,
  0x20080000404200010220000000100000004b000000000000000832c0012001019a00859b8220004e003c00380801000000003c39090905010346147f000000000000010001eb0c0c2d412328283700b3,
  0x200800006042000102200000301000010058000000000000028a32c001a001819a00c59b82200085005000800901000000000039090905010346147f000000000000020002780c0c3c502d37374600b4,
  0x220800006042000142200000301000010079000000000000028a32c021a801899a00c59bc2200267008c00e60202001502f70039090905010346147f0000000000000300032d0c0c5a7337554b5a00b5,
  0x200b00000c0a00000000000008400000003b000000000000001ca2e4042800909a0884394720003a002800dd0301000000000083222207070346147f0000022100000c00032d0b0b645a325f504b00b6,
  0x20100000a00600018d00000041020000003b00000000000007ca22e0000000c09a00cc13b2600055002800580101000000003c9d252f060204460a7f000000000000000202be110a32142832144600b7,
  0x20100000a00600018d00000041020001005800000000000007ca22e0200800c89a00cc13f260011d005000bd010100000000009d252f060204460a7f0000000000000003034b110a503c3250326400b8,
  0x3018000020220000000e000072020001006f000000000000028aa2c0b0508080bb50ce510e28017c00780090050100000000009b45050a0a0046147f000000000000002002410505411e1e73644600b9,
  0x21100000a00200008400000041000001006a00000000000007ca22c0200a00c9ba00de1372600153006e00e14301000000000002060b02020346147f000000dd00000c00032d0a0a645a464b4b5a00ba,
  0x20120000040a00000000000001400000003b000000000000000c23e4142020109a81843106200005002800320901000000005a97662207060346147f000000000000040001ff020b37233228232300bb,
  0x20120000040a00000000000001400000004b000000000000000c23e4142020109a8184310620000a003c00770301000000005a97662207060346147f00000000000000800278020b412d50322d3700bc,
  0x20120000040a000000000000014000010058000000000000000c23e4142820109a8184314620001e005000cf0101000000007897662207060346147f00000000000000c0032d020b5f376e46374b00bd,
  0x28040000e0260001008800007f4200010058000000000000029a23f001072080fa80edb30e21007300500048060100000000005c353205050446147f0000000000000040012d000037285537463700be,
  0x211a0000040a0000000400000840000000320000000000000018a2e0042000109a08843986200012001e00240201000000005a305e2207070346147f000000000000010001eb0b0b1e1e1e1e1e1e00bf,
  0x211a0000040a0000000400000840000100580000000000000018a2e0042800109a088439c62000550050009502010000000000305e2207070346147f000000000000020002780b0b55691e374b4b00c0,
  0x20000000148200000000000008110001006f000000000000000823d000200004ba80b4350620017c0078004e00010000000078770e0303030046147f0000010900000040014b02062d4b5f2d414100c1,
  0x20080000800200010c04000040000000003b000000000000074822c4202000409a1a8e1b326000550028002a010100000000786d0b0605020046147f000000000000000101ff040a19190f2d2d3700c2,
  0x20080000a00200010c04000040000001007900000000000007ca22c4a06800c8ba5ace1b726002ee008c00970101000000003c6d0b0605020046147f0000000000000002025a040a41412355555f00c3,
  0x6070000000420001a081000000120001005e000000000000001c2af0102c00019a01bc13c62c0109005a00b8060100000000009c1c1c05050046231f0000000000000200022d0d0d5f826e3c414100c4,
  0x289400000042000190880000000200010064000000000000001962d0102e00019b00bc134e20010e006400b804010000000000271c1c05050023231f0000000000000800022d1010823c416e415f00c5,
  0x280400001192000014080000080000000043000000000000002962d011064804bb80b4170e28001500320051040100000000789e690f04040323147f0000000000000040011e02102a555b2a553c00c6,
  0x64a80000a80200012c4b000040100002009400000000000006ca2af231280cc99a24fe1bf66c031b00c800ac0901000000000090140c02010046147f000000dd00000c0002460d0a6e641e504b5f00c7],
  [0x68e400004242000094090000080000000052000000000000000d2ad011225101bb80b5930e28000a00460057070100000000781a1a1a0b0b0423197f0000000000000400012d07075555553c3c3c00c8,
  0x430000000000000000000000000000000000000200003200320076441c00160000001a1a1a0f0f004628ff000000000000010402e10d0d30483030483000c9,
  0x100740000000000000000000000000000000000080000011d0082008e0101000000003c8c17170b0b0046147f0000000000000002022d0d0d3a21213a21be00ca,
  0x6420000040020001a019000008100001007e000000000000028c2af031240111ba01b793862c019f0096009f0201000000003c9d302705050046147f0000000000000200023c0d00415a5541504600cb,
  0x30000000060200000050000000810000004b000000000000028822c0aa0280009a518e3187200048003c003a070100000000008e050503030046147f000000000000001001be060623230f5a413200cc,
  0x30000000060200000072000000910001006f000000000000028826c0aa9a80009a518e31c72004ea007800a3060100000000008e050503030046147f0000000000000020024b08063c3c288c5a4b00cd,
  0x31040000d20300012881000000800001007e000000000000028832d8b3040500ba64afb73628008c00960091020100000000009b322005050046147f000000000000000102be000041412d46466400ce,
  0x30000000108600011804000000010001006a000000000000029923c9ac5220a4bbd8ce170f210288006e00560601000000000011083403030346147f0000000000000010013c0204412355694b4100cf,
  0x3000000000030001582600000020000201620000000000000299a6c2b25a80009b508e514e300fa0039800b3070200310327007d05450a0a0046197f000000e9000000200219040841371ec8554b00d0,
  0x20000000e04200008180000072060000004b000000000000028e72c021060482bb2defb30eb0004e003c003c090100000000009b32160605044614bf000000000000000401be111128281e32503c00d1,
  0x22000000e042000181800000720600010079000000000000028e72c0a14e048abb6defb34eb001e7008c009e060100000000009b5f160605044614bf0000000000000008024b11113c3c2d4b785a00d2,
  0x20000000c20200000c000000011000000043000000000000054822c8030280409a0aa4133b60002700320056070100000000001621260c0c0046147f000000f500000004012d030a3737554b5f4100d3,
  0x20000000108600000140000000210002008c000000000000029827c10c0820a4ba90c41fc720049c00b400af0002003203030087654403030046197f00000000000000080219080650374164824600d4,
  0x30190000000700000004000000010000004b000000000000028822c4aa7000009a5a8e59072000cd003c00b10201000000003c7e520503030346147f0000002b002b041002be0506e60a05e60a1400d5,
  0x20100000200600000040000002010001007e000000000000029822c0ac4d00a8bac0ce5347a0021c009600af01020033030e00993e4403030546197f0000000000000008022d01065f28554b7d5000d6,
  0x28040000200600011408000042000001005e00000000000002db62d9140740a0fb81ec133e690118005a0056440100000000007c332705050323147f000000d900000040013c0e104b2373375f3700d7,
  0x20000000200200008180000074420000004b000000000000029a22c0a4070080bbc0ce130eb10058003c004245010000000000765f3505050046147f00000000000000040178000032322832503c00d8,
  0x2000000020020000818000007e420002008c000000000000029a22c0a44f0088bbc0ce534eb104ea00b400af050100000000007f5f3e05050046147f0000000000000008023c00004b4b374b825a00d9,
  0x2008000002120000004400000000000000520000000000000208a2c4800014029e6584118620015e00460032000100000000008531280b0b0046147f000000000000010001be090928461428282800da,
  0x3008000002120000004400000000000100580000000000000288a2c4a25894029e758671c620022600500090000100000000008531280b0b0046147f0000000000000020024b050950501e78323200db,
  0x31000000000200000504000000000000003b000000000000028822c0a00000009a518e13b270004100280032050100000000002f510c05050546147f000000000000000401e1040e1e1e3228323200dc,
  0x31000000000200000504000000000001006a000000000000028822c0a04800009a518e13f270022e006e009e050100000000002f510c05050546147f0000000000000005024b040e3c3c3250646400dd,
  0x31000000800200000445000000000000004b00000000000002c8a2c0a05080409a51be1bb6680032003c008509010000000000901e370902044614bf0000028800000410023c050a55412355373700de,
  0x20000000800200000400000005500000004b000000000000054822c001000540ba24945376200078003c003c070100000000008d61370c020046147f000000000000010001be0a0a23414123412300df,
  0x20000000800300000400000005500001005e000000000000054826c0010a0550ba2e94537620011d005a00a8000100000000008d61150c020046147f0000000000000104024b0a0a4b692d4b694b00e0,
  0x24000000a10200000400000045500001005e000000000000002a22c040000080ba80c413326000a0005a0074000100000000000f374805020446147f0000000000000040022d020e2d414b2d372d00e1,
  0x20100000808200000c000000057000020099000000000000054822c0a00820409ac086137260089800d200a306010000000000290b2102020546197f00000000000008000219020a8c504646284100e2,
  0x300000001182000014400000002000010087000000000000023926c184220204bbd084150e3001f900aa00a30701000000000085053304040546197f000000e900000020021902084628468c504100e3,
  0x28040000003200019008000008040000004b000000000000020962d000065402bf2ca4310e30006c003c0042040100000000787f123005050523147f0000000000000100017809103250411e3c2d00e4,
  0x280400000032000190080000080400010079000000000000028962d0000e5402bf2ca4314e30015e008c00af0402003402ff5a7f123005050523147f0000000000000200022d0910506e5f325a4b00e5,
  0x22000000800200004400000001300002008c000000400000054826c0000808409a008413726005f000b400f3010100000000000661210e020046147f000000eb00000504032d0f0a5f5f555f5f4b00e6,
  0x310000000006000181840000044000000043000000000000028822c0a00000019a5086110630014f003200420101000000000008353505050046147f0000000000000001017804042828283c3c5a00e7,
  0x310000000006000181c6000005400001006a000000000000028822c8a25800019a508611463004b0006e00af0701000000000008050505050046147f0000000000000014023c04043c3c3278785a00e8,
  0x24a000004202000126b9000000100000004b00000000000000082ad011280100aa80b5b376240145003c00b4000100000000009458240a0a004614ff0000000000000200022d00005f693c5a505500e9,
  0x60440000402200012090000009100001007900000000000000083ad0312c0110ba01b7b3863c02c8008c00a30501000000003c9d771605050546147f0000000000000004022d00004155553e5f4900ea,
  0x1006f00000000000000000000000000000000000000000244007800580801000000003c8d651405050446147f0000000000000040022d00002d144b23143700eb,
  0x2010000000220000000000000a0200000052000000000000028822c0a0040000fa00c61306a000d20046002a0601000000000048503e0f0f004619000000000000000004014b010123232323232300ec,
  0x211000000022000000000000020200010079000000000000028822c0a2440000fa90ce1306a001e0008c009f050100000000005065160808004619000000000000000800022d01016e23465f5f3200ed,
  0x64700000806200002401000048120000003b00000000000000082af050220081ba01b413b26c003c0028003d090100000000005d6c0c0f0f004619fe0000000000000100012d0d0e4155410f1e2d00ee,
  0x2010000060020000022000007a1a0000004b000000000000020a32c001a00180ba00d593822000eb003c0048420100000000004809090f0f0046193f0000014200000040012d0c0c37415f253f2d00ef,
  0x201000002012000100000000380a00000052000000000000020a22c000001482be24d411062000d600460049400100000000004831310f0f0046193f0000014300000040012d0909374653254b2d00f0,
  0x30180000e04200012402000070200001006f00000000000002ca22c0b30c00899a50e7b3762002f3007800ac090100000000009d712f0505054614fe0000002100210020022d000046286469505f00f1,
  0x7d100000e8420001a492000070020001007e000000000000028e32f0b12c05899a74f7bbf66801d4009602600901000000000083201e0606048c28fe000000e700e70003031e0000874b370a0aff00f2,
  0x200000004002000100200000003000020090000000000000029872c031a809008a11ad93c63806f400be0105020100000000000a2e2e0f0f052350ff000000000000018003030c0c6473734b555a00f3,
  0x200000000012000100000000002000020099000000000000029862c030681c028e35ac33463807bc00d2010505010000000000122e2e0f0f052350ff0000000000000009030309094b5a6455737300f4,
  0x200000008082000104000000003000020094000000000000075862c0300808408a11ac137678074e00c80105010100000000000b2e2e0f0f052350ff000000000000081003030a0a735a55734b6400f5,
  0x32040000000200011144000008200000004b000000000000020b62c0a05600009b50ce534e2002d0003c003c0301000000005a083e3e01010523287f0000000000000004012d0405322d2932403200f6,
  0x32040000000200011144000008200001006f000000000000020b62c0a05600009b50ce534e2005f000780090070100000000003d3d3d01010523287f0000000000000008022d040546413346544600f7,
  0x32040000e0020001594e00007a200002009400000000000002db62c2a15f04889bf4cfd37e3307e400c8010e030200350302007f2d2d01010523287f000000000000000c032d1005645f3d6e866400f8,
  0x60a00000d5820001ec04000000300002002a00000000000007e822d2312803058a91b79ff67c08700208013208010000000000882e2e0f0f050078ff0000000000000c000303020d9a5a6e825a6a00f9,
  0x2000000055920000a004000000300002003500000000000002a822d0312817078eb5b7bfc63807c6017c013200010000000000902e2e0f0f050078ff0000002c002c0c00030302099a6e5a5a826a00fa,
  0x70f20000c44a00002085000008500000004b000000000000001cabf0152801918a91b43bc6280032003c010e030100000000001e1e1e0f0f036478ff0000009d009d0003032d0b0d64646464646400fb,
  0x210200002c0a000100000000124000000043000000010000029aa2e0842020909ac0cc39062000320032003e030100000000005441410e010346141f0000000000000040012d0b0b374146232d2800fc,
  0x210200002c0a00010000000012400001005e000000010000029aa2e1842020b0dac0cc39062000d8005a008e030100000000005441410e010346141f0000000000000080022d0b0b41555f2d413200fd,
  0x230200002c0a000140000000124800010087000000090000029aa2e1a42820b8dac0ce394633020a00aa00ef030200360320005441410e010346141f00000000000000c0032d0b0b55697841554600fe,
  0x20100000001200000080000003000000003b000000020000029822c0840114039ee48c11062100190028003e0001000000000003424205050346141f0000000000000100012d090932462d283c2d00ff,
  0x20100000201200000080000033080001005e000000020000029a22c88401148bdee4cc1106a100c3005a008e0001000000000003424205050346141f0000000000000104022d01093c55373c553c0100,
  0x201000002036000001800000330800020090000000120000029a22c8a449348bdee4ce3146b1020800be00ef0002003702fd0003424205050346141f000000000000000c032d0109466e504678500101,
  0x21000000800200010d0400000a000000003b00000004000007c822c0800000419a428c133260004c0028003e0101000000000006434302010346141f0000000000000004012d0a0a3232283246320102,
  0x31000000800200010d0400004a000000005200000004000007ca22c0a00000c19a42ce13326001180046008e0101000000000006434302010346141f0000000000000008022d040a463c324655460103,
  0x33000000a00200010d0400004a000001007e00000024000007ca22c0a04800c99a42ce1372700333009600f101020038031f0006434302010346141f000000000000000c032d040a5a553c5a6e640104,
  0x280400000002000190080000080600000043000000000000020962c000064400bb00ac130e30008800320038070100000000009b5f32050500460f7f000000000000000401ff10101e1e232337230105,
  0x280400000002000190080000080600010064000000000000028962c0000e4400bb00ac134e3001720064009307010000000000995f16050500460f7f0000000000000008027f10103c3c46465a460106,
  0x20300000c00200018480000004460000003b000000000000025822e001040181ba00ad93362100af00280038050100000000785f5235050500460f7f0000001c0011004001ff0000291e3c291e260107,
  0x20300000c00200018480000004460000004300000000000002d822e0010d0181ba00ad9376310145003200930801000000005a5f5235050500460f7f0000001d00110080025a00003d32643d464e0108,
  0x200000200000000010000003200000000000000000000000000000000000000000024001e003800010000000000321313030300460f7f000000d50097000101ff06061e1414232d2d0109,
  0x240000000010000004b00000000000000000000000000000000000000000064003c0048080100000000003d3d3d030300460f7f00000000000000200278060619190f372332010a,
  0x200000001482000002000000001100010064000000000000000823c408282010ba80b43d4720011c006400b2020100000000004f4444030300460f7f0000012700000300032d020632644132463c010b,
  0x24000000001000000520000000000000000000000000000000000000000007300460029060100000000003d3d3d030300460f7f00000000000000200178060619190f372332010c,
  0x20000000148200000200000000110001006f000000000000000823c408282010ba88b435c720013c00780087030100000000000e1313030300460f7f0000012700000c00022d03065a324146323c010d,
  0x20000000840a0000240000000840000000430000000000000048a2e004200051ba0084333660001a0032002c0301000000005a142c21070203460f7f000000db0000040001ff0b0a32281e1e1e28010e,
  0x200000008c0e0000a400000078400001006f00000000000007caa2e0042000d1ba00c43336610145007800770301000000003c142c21070203460f7f000000db0000080002780b0a463c3232323c010f,
  0x20000000ac0e0000a400000078400001007e00000000000007caa2e0042800d9ba00c43376610226009600d803010000000000142c21070203460f7f000000db00000c00032d0b0a645a464646500110,
  0x20060000040a0000000800000040000000430000000000000208a2e0042480309a00ac31062000280032002c0501000000005a7c3022070503460f7f0000010f0000001001ff0b0b1e1e1e3228280111,
  0x20060000040a000010080000024000010064000000000000029be2e09426c0b0fb40ec3146200118006400770501000000003c7c3022070503460f7f0000010f000000080278100b283c3c2846460112,
  0x20060000048e000014080000034000010074000000000000029be2e1942ec0b8fbc0ec3146200254008200d8050100000000007c3022070503460f7f0000010f0000000c032d100b3c5a503c645a0113,
  0x210000001192000000000000000000000032000000000000002823c000000005ba80841706200017001e003601010000000000713e3e040403460f7f000000000000004001c802001e1e551e37280114,
  0x210000001192000000000000000000000052000000000000002823c000080005ba808417462000c60046009701010000000000713e3e040403460f7f0000000000000080022d020032327d3c553c0115,
  0x20000000d18600000400000008000000004b000000000000002823c000000045ba8084173260005f003c0036080100000000002c333304020046147f00000000023b004001be020a1e37551e1e280116,
  0x20000000d1860000040000000c400001006f000000000000006823c0000a02c5ba8084177260011800780097020100000000002c333304020046147f000000e7023b0020022d020a46554164323c0117,
  0x6cf0000042020000a401000070100000003b000000000000000c2af011201181bb01b49b8e2c004200280028080100000000008c241c0b0b0523147f000000000000010001eb110d232d2819191c0118,
  0x6cf0000042020000a4010000701000010058000000000000000c2af011201181bb01b49b8e2c00ca00500061080100000000008c241c0b0b0523147f00000000000002000278110d3741322323260119,
  0x6cf0000042420000a4010000701000010083000000000000000c2af011281199bb01b49bce2c01e400a000e90802003902f6008c241c0b0b0523147f0000000000000300032d110d737d50414144011a,
  0x200000008402000004000000001100000043000000000000000822c418200040ba00a4333620001100320036010100000000782c2121030200460f7f00000000005e004001c80a06343241201e28011b,
  0x200000009482000004000000001100010058000000000000000823c418280050ba80a43776200024005000910101000000005a7f1616030200460f7f000000de00000500024b020652503c3e3c46011c,
  0x281200002c0a00000000000000400000003b000000000000000822e0042000309a0884390720002d0028003b050100000000785f5a1b070602460f7f000000570056000101ff0b0b3c28233c283c011d,
  0x281200002c0a00010100000010400001006f000000000000029a22e0846c00b8da48c43947a00188007800a10301000000005a655a1b070602460f7f0000005700560008025a010b3c3c4650823c011e,
  0x20080000e002000004000000740200010058000000000000029a22c0800504809ae4e5b336a100f00050003805010000000000363636050505460f7f000000000000000101ff000023231e3c3c3c011f,
  0x20080000e0020000040000007e0200010079000000000000029a22c0a0050488dae4e7b33eb101d1008c009a0801000000005a484848050505460f7f00000000000000800278000037375a5050500120,
  0x20080000e002000004020000760200020094000000000000029a22c0a00d0c88dae4e7f37eb1051900c800fc05010000000000363636050505460f7f0000000000000003032d0000415f6464a0960121,
  0x200400000402000000000000000100000043000000000000001822c1082000208a90ac31062100370032003507010000000000320e0e030301460f7f000000ed0000001001ff04061e1e285a2d1f0122,
  0x200400001402000000000000080100010058000000000000001823c10c280020ba90ac3546210078005000a002010000000000970303030301460f7f0000000000000080027802063232a02d5a3d0123,
  0x202400000402000000000000000100010058000000000000001822d108291020aa90ac314621000c00500053050100000000001919190a0a01460fff0000000000000002022d07061e1e282d5a010124,
  0x21000000c0020000a400000078000000004b000000000000000822c0000404819a24a433363000a3003c0030090100000000009b2b2b05010346147f000000000000000101be000017331c1733400125,
  0x21000000c0020000a40000007a0000010064000000000000028a22c0a00404839b64e6733e3001950064007e01010000000000712b2b05010346147f0000000000000002027800002b47302b47540126,
  0x23000000c0020000a40000007a000001007e00000000000002ca22c0a00c048b9b64e6737e300348009600dd01010000000000712b2b05010346147f0000000000000003032d0000495b443f5b680127,
  0x20100000202600000100000072000001006400000000000002ca22c8a0040088da40ce5306a003600064002f020100000000007d3e2f08080246143f000000f10000000101b401011e14191e3c480128,
  0x2010000020260000010000007220000200a100000000000002ca22c8a04e0088da40ce5346a009ea00e600a6050100000000007d3e2f08080246143f000000dd0000000202c801013c28323c78900129,
  0x201000008006000184000000090200000028000000000000014822c0000000409a008413b260001400140026010100000000789d252f0f0f04460abf000000000000000101961100281414281432012a,
  0x300000004202000000770000700000010064000000000000028c22c0a1d080009b5087d10e2003ca0064004b0701000000003c9f2a050a0a0046147f000000ee0000001001ff05055a2d1e872d1e012b],
  [0x20100000c0420001a480000008020000004b000000000000000832f0112601019a00adbb3628006e003c003409010000000000936038060504460fbf000000000000004001ff00002323322d2d32012c,
  0x20100000c0420001a480000008020001006a000000000000028832f0112e01019a00adbb76280146006e008506010000000000936038060504460fbf0000000000000041023c0000373746414146012d,
  0x28a40000e226000034190000721000000043000000000000021f62d810275c80fbc0fc130e29006e003200850602003a0321009e643308080323197f0000010900000014022d07104141324b4b32012e,
  0x380000002206000014e8000050240000004b000000000000028b26e0944a45a89b7ce4335e200073003c00850402003b030f007d163406050446147f0000011600000014022d1108373732555532012f,
  0x31040000c00200010164000008200000003b000000000000029822c0a01100009ad08e1306310258002800420701000000005a86450501010523237f000000ee0000001001b4050828281e6446320130,
  0x31040000c00200010164000008200001005e000000000000029822c0a05100009ad08e13063104b0005a00970701000000003c86450501010523237f000000ee00000020025a05083232288c5a3c0131,
  0x33040000e00200015d6600007a200002009900000000000002db26c2a15b04889af4cff37e330e1000d200ef0702003c03000086450501010523237f000000ee00000030032d05083c3c32b46e460132,
  0x243000002a2200002011000072100000004b000000000000028a22f890240088da41f41386ac0070003c00380101000000005a8c4a4a08080046147f000000000000004001b40d0137283c37281e0133,
  0x243000002a22000020110000721000010074000000000000028a22f8902c0098da41f413c6ac013b008200900002003d02fe3c8c4a4a08080046147f0000000000000080025a0d014b3c504b3c3c0134,
  0x20000000400200010020000008100000004b000000000000008872c001a00100ba04859382300098003c003b030100000000783a1f0905050546147f000000000000004001780c0c284141282d280135,
  0x20000000400200010020000008100001007e000000000000008872c001a80102ba048593c2300192009600a60202003e03105a3a1f0905050546147f0000000000000080022d0c0c3c69693c4b460136,
  0x201000004002000102a0000018100000003b000000000000000832e001a001819a0085938220002a0028008e020100000000001f393906060046147f000002220000004002c80c0c4b555f28323c0137,
  0x201000004002000102a0000018100000003b000000000000000832e001a001819a0085938220002a0028008e020100000000000a3a3a06060046147f000002220000004002c80c0c554b5f32283c0138,
  0x20300000f482000020000000501100000052000000000000000e23c019202180ba80e5b7862000b10046008c0701000000005a9e4423080301460f00000000d500000040029606064b2f553749410139,
  0x20100000f48200002000000050030000004b000000000000000e23c019202180ba80e5b7862000b1003c008c0601000000005a9e6e0c080302460ffe000000d500000040029606064b4955372f41013a,
  0x20020000040a000000000000004200000032000000000000001ca2e8142000109a08a43307200014001e008c4301000000003c66261e07060346147f000000f5000002000296030b5064412d3c32013b,
  0x28010000c60200000000000074400000003b000000000000028a22d4000080009a0aa433172000670028003c03010000000078523c400b0b0246147f0000009e009b000101e10303352b28352b46013c,
  0x28010000c602000000020000744000010087000000000000028a22d4200880009a0aa6335720032000aa00a306010000000000523c400b0b0246147f0000009e009b0002024b0303534937534964013d,
  0x200400008002000034000000090400010058000000000000054962c000060040bb0084133a6000d00050003d0001000000005a0318180c0c0523147f000000e20000000401e1100a144141145a2d013e,
  0x20040000800200003400000009040002008c00000000000007c962c8200e0040bb4086137a70037800b400a10102003f0325000318180c0c0523147f000000e200000008023c100a285f5f287846013f,
  0x2000000080020000a400000001000002009400000000000007c822c0200000419a4086133270051400c80050010100000000002e0c290c050246287f0000000000000001017d0a0a23463c2346820140,
  0x2000000080020000a402000001200002001400000000000007c822c0200800419a40861372700f8c05aa00af010100000000002e0c290c050246287f0000000000000002023c0a0a2d5a3c2d5aaa0141,
  0x3008000000120000000400000020000000520000000000000288a2c0a00014039e748e11062000f00046003d0201000000000014560c05050046147f000000000000010001ff04092d4123283c3c0142,
  0x3008000000120000000400000020000200900000000000000288a6c0a05894039e748e314630089800be00a10002004003360053742805050046147f0000000000000104029604094b69284664460143,
  0x3008000000120001014400000000000000430000000000000288a2c0a24894029e6c863146200324003200a50501000000003c4b494905050046147f000000f900000020025a09094655148c55460144,
  0x6c200000406200012401000001120000005200000000000000082af011220100bb01b4138e2c0132004600420401000000000052142f05050446147f000000000000040001ff0d0d50463c23193c0145,
  0x6c200000686200012401000071120001005e000000000000000a2af0312a0198bb01f413ce2c02cb005a00a50601000000000052142f05050446147f0000000000000800023c0d0d6e5a50412d500146,
  0x4c300000e8220000a48000007a020001006a000000000000028a3ad090240080ba40fc1b06280032006e007e4501000000003c7e4d14080504460f7f000000000000010002ff00003c3c3c3c3c3c0147,
  0x200000000402000001040000001100000052000000000000028822c0a80000009a508e31462000960046003a050100000000787d473403030346147f000000ed0000000401ff04042d2d0a2d642d0148,
  0x22000000149200004104000008110001006a00000040000002a823c0a80000049a508e3546200099006e00770301000000005a1a1a1a03030346147f000000000000004402780f043232463246320149,
  0x22000000149200014104000038110002009400000040000002aa23c2a84804049af48e354623033400c800ea030100000000001a1a1a03030346147f0000000000000084032d0f04505064506450014a,
  0x200600002c2a00001002000012400000003b000000000000001ba2e8042200909a10c43107200201002800430301000000005a0b080808070323147f000001200000010001be0b0b285523285532014b,
  0x200600002c2a0000110a0000124000010074000000000000009ba2e8042e40989a10c43147200306008200a60301000000003c0b080808070323147f0000012000000104023c100b3c73373c7346014c,
  0x2200000011d20000c000000008000000003b000000000000002c22d010000005ba80843f1620000c0028003e010100000000000d1e1e0e040146147f000000000000040001ff02004b28323c282d014d,
  0x2280000011d20001c000000008000001006a000000400000022c22d030080405baa4863f563300ce006e00ac010200410322000d1e1e0e040146147f0000000000000800022d020f6946505a464b014e,
  0x21000000e406000104800000720000010074000000000000028a22c9840744a8bae4edb33e310193008200a04801000000005a89111105050146147f000000d900000008025a00003c3c5a3c7349014f,
  0x2801000004070001180000000000000200b0000000000000028922cf20060000ba0e8e130f20020d010e00a04401000000005a973d3d0e050246147f0000012700000104025a03033c64413c64490150,
  0x74500000020200002415000000300001006400000000000000082af0b278e1008a51b65bf22c06900064009a0201000000003c1a1a1a0a0a044619ff00000051005a0200022d0d05555f464137460151,
  0x74900000021200002055000000300001006f00000000000000082af0b278f5028a75b679c62c06040078009a0001000000003c1a1a1a0a0a044619ff00000050005a0008022d0d05413746555f460152,
  0x20000000800200000c04000001000000003b000000000000054822c0200000409a508613326000130028003a070100000000785d6b0c0c0c0046147f000000000000000101be040a292e3c2b30320153,
  0x20000000800200002c04000001000001005e00000000000007c822c0a04800409a508613726000ec005a00a4010100000000005d6b0c0c0c0046147f0000000000000002024b040a474c3c494e6e0154,
  0x21040000800600000540000000000000004b00000000000003d822c1840200e09ac8cc133a610073003c003e0001000000005a5b4b34090202460f7f000000000000000401cd0a0a23322341502b0155,
  0x21040000800600001540000000000001006a00000000000007d9e2c1840e00e09acacc137a610148006e00a4000100000000005b4b34090202460f7f0000000000000008029b100a375a3755783f0156,
  0x74a000000002000020150000009000000043000000000000000c2af0b23081008a51be7b962c00d70032003c050100000000001a1a1a0a0a004614ff0000010d0000040001ff0d044628373728280157,
  0x74a00000000200002015000000900001007e000000000000028c2af0b27881008a51be7bd62c0438009600af040100000000001a1a1a0a0a004614ff0000010d00000800025a0d0478464b69463c0158,
  0x30030000060b000000040000004000010064000000000000000822e4843000109a588471062000ee0064004706010000000000721515090901461e1f0000012800000400012d0b05573d174d29420159,
  0x30030000060b00000006000000400001007e000000000000028822e4a47800109a5a86714620025c009600ad03010000000000721515090901461e1f0000012800000800022d0b056b512b615156015a,
  0x300000008006000000440000000100000052000000000000021822c18c1000209ad0cc510621007d0046004707010000000000210404090901461e1f0000000000000004012d060532284b325f2d015b,
  0x30000000800600010946000002010001007e000000000000029826c1ac5800209ad0ce51462102aa009600ad07010000000000210404090901461e1f0000000000000008022d060550462d647d4b015c,
  0x20000000800200014400000000000000004b000000000000054822c0000000409a008413b260004a003c0028050100000000005b0c210e020146147f000000000000004001ff0a0a370a50140f14015d,
  0x20000000800300014c01000000200002011b000000000000054822c2300800409a00841bf2600654026c00bd0901000000000038ac3f0e020146147f0000000000000800023c0a0a7d64514f3c5f015e,
  0x20000000c082000004800000000000000032000000000000000822c011240450ba34a5b336600008001e00930804004202de003b3b3b0b060046197f000000f300f30001022d0000464646464646015f,
  0x7ca80000e82700010c890000720000010064000000000000029a2ae091250580bae4edb3362100dc0064009a03010000000078a8101005050346147f000000000000040002c80000783c28465a3c0160,
  0x68640000422600001409000000000000004b000000000000000d2ad011225100bb00b5930e280017003c003b0401000000009682770f0b0b0423197f000000f70000000401e10707213f2d234b2c0161,
  0x68640000422600001409000000000001006a000000000000000d2ad4112b5180bb00b5934e28007d006e009f0402004503015a82770f0b0b0423197f000000f700000008022d07073f53414173400162,
  0x68a40000020200001410000000000001005800000000000000092ad410225180bb00b4133e2800960050003b04010000000078771a1a0b0b0423197f000000f70000040001be07075a1e195a28140163,
  0x68a400002203000014100000700000010083000000000000028b2ad4b02a5180bb40f6137e28013200a0009f0401000000005a772e2e0b0b0423197f000000f700000410025a0707823c198246280164,
  0x22020000148a00004000000000400002009400000000000002b8a2e0242800149a80863d463003e800c800a10301000000003c8b5e2207010546197f000000000000000202c8020b5748335344630165,
  0x6c30000040470000a491000008100000004b000000000000000c2af0112001119b01b41b8e2c000a003c00950101000000005a1a1a1a0b0b0446197f000000e000000500022d0d0d505f414632410166,
  0x28040000c02600013509000001000001006f000000000000029962d1956f1521bbf4a5937e6901d6007800a348020046030c009a692e05050323197f0000010e00000008021e10103c4b4b3c82410167,
  0x4b0000000000000000000000000000000000080000008c003c0034010100000000008c17170f0f0046147f0000000000000001017d0d0d30171730175f0168,
  0x200400008002000004020000000000000052000000000000000822c0402000009a00a41bb26000a80046003c070100000000008d73270a060046147f000002890000000101be0e0e3232323232320169,
  0x20040000800200001402000000340001007e000000000000000922c0622a80009b00a61bfa600a05009600a8070200470329008d73270a060046147f0000000000000002024b0e0e505050505050016a,
  0x20000000800200010c00000000140001005800000000000007c822c0e00000019a4086133260018b0050003a0101000000005a0c732f05020346147f000000000000000101ff0a0e323719322846016b,
  0x20000000800200010c00000000140001006a00000000000007c822c0e00000019a4086133270036c006e00900101000000003c0c732f05020346147f000000000000000202780a0e464b2d463c5a016c,
  0x20000000800200010c02000000340001007900000000000007c822c0e00800019a408613727005e2008c00ef010100000000000c732f05020346147f0000000000000003032d0a0e5a5f415a506e016d,
  0x20000000800200000440000000000000003b000000000000054822c0000000409a0084133260020d00280045010100000000009b4b4b02020146147f000000590058001001ff0a0a374a20554023016e,
  0x28000000800300000c000000010400010087000000000000054822c4000800409a4084137260010e00aa00aa0101000000000029212102020146147f000000e200000014023c0a0a4b5e34696837016f,
  0x20000000800300000c00000001100002008c000000000000054822c4100800409a00b41b726000e200b400aa090100000000005d212102020146147f000000e300000200023c0a0a4b72346954370170,
  0x30000000800200002c040000010000010064000000000000074822c0b05800409a50865b726800ea006400aa070100000000000545210c020546281f000000e3000000110219050a412d37825a640171,
  0x20000000800200000400000001000000004b000000000000054822c0100000409a00841b32600057003c0074090100000000005d21210c0c044614bf00000000005d004002e10a0a412861371e2b0172,
  0x2200000000020000e000000000000000004b000000400000029822c0800104009ae4c413063301a5003c003c0101000000005a7d45450e0e0523287f000000fa00000004012d0f0f1e28323c4b2d0173,
  0x2200000000020000e040000000000001006a000000400000029822c0800104009ae4c41306330451006e0093080100000000788e45450e0e0523287f000000fa00000020022d0f0f323c32645f410174,
  0x2200000010920001e800000000000001007e00000040000002b822c2a04904049ae4c617463304020096010e010200480338009916160e0e0523287f000000fa0000000c032d020f506e6450875f0175,
  0x2040000000200000004b000000000000000000000000000000000000000003b8003c003c4101000000005a871d1d0a0a052328ff000000e90000001001030d083c231e5037280176,
  0x30200000000200002470000050300001006f000000000000029a26e0b23080008ad9f613c62507e9007800930101000000003c871d1d0a0a052328ff000000e90000002002030d08503732644b3c0177,
  0x302000000002000024720000503000010083000000000000029a26e0b23880008ad9f613c625157c00a0010e01020049032b00871d1d0a0a052328ff000000e90000003003030d085a5f468287500178,
  0x300000006802000001560000702000010087000000000000028a22c0b15881888a50cfd9462008fc00aa010545010000000000051d1d0f0f052350ff000000000000003003030505643232c864500179,
  0x20000000600200000512000050300002008c000000000000028a26c0f11881888a40c79b726006d600b4010501010000000000731d1d0f0f052350ff0000000000000c0003030e0ec86432643250017a,
  0x300000006002000001720000502000020090000000000000028a26c0b11981888ad0c79b4621080200be010507010000000000871d1d0f0f052350ff000000000000042003030808964b32964b50017b,
  0x22700000d0a2000064810000000200010079000000400000057822f0312d01149a91b7bfd63f0190008c010e0002004a0313001a1a1a0f0f055a78fe0000000000000c0003030d0f826e6e5a5050017c,
  0x22b00000d082000064810000000000020094000000400000057822f0312d01149a91b7bfd63f025800c8010e0102004b0312001a1a1a0f0f055a7800000000000000030003030d0f6e826e505a50017d,
  0x20000000c00200000c02000008300002003800000000000007c822c0b10800408a40c79b72780dc001c2012e0102004c032c000202020f0f050078ff000000000000030003030a0a8c965a5a6464017e,
  0x300000004002000140060000382000020038000000000000029a22c2b559048a8af4cff946b3251c015e012e0002004d032d004646460f0f050078ff000000000000000c030304045a645a8c9664017f,
  0x22000000c0830001cc04000008200002012f000000c0000007e822c2b749069b8af4c7b376b3081102bc01320302004e032e004c4c4c0f0f050078ff0000000000000108032d020f5a965f5a96690180,
  0x74700000c802000024d10000783000000032000000000000000e2ff0112801908a91b59bc62c000b001e010e020100000000002020200f0f056478ff0000005b005b000303030d086464646464640181,
  0x7ca00000e827000024110000721000010087000000000000029b2ef891280198cbc1f5bbde2c026000aa010e0004004f02d2002e2e2e0f0f050078ff000000000000014403030d0d3296963296320182,
  0x30020000040a00010104000000400000003b0000000100000298a2e0042000109a0184398620006600280040030100000000004b414107010346141f0000000000000004012d0b0b372d1f4044370183,
  0x30020000040a00010104000000400001006a0000000100000298a2e0042000109a018439862003ca006e008e030100000000004b414107010346141f0000000000000014022d0b0b41372455594b0184,
  0x32020000040a00010106000000600002009d0000000900000298a2e0a47800109a518639c6300c1c00dc00ec430100000000004b414107010346141f0000000000000018032d040b554b38696d5f0185,
  0x3110000020320001000000003e0200000043000000020000029a23e004013482dfa4cc110ea1003e0032003e4501000000000059424208050346141f0000000000000040012d09092c3a3d2c3a2c0186,
  0x311000002032000100000000360a0001005e000000020000029a23e88405348adfe4cc110ea100dc005a008e4501000000000059424208050346141f0000000000000140022d0109344e51344e400187,
  0x311000002032000100000000360a0001006f000000120000029a23e8a44d348adfe4ce314eb90226007800f00501000000000059424208050346141f0000000000000144032d010947686c47684c0188,
  0x30000000800200000400000000120000003b000000040000055822e0000008c19ac0cc13326000340028003f0101000000000080434305020346141f0000000000000100012d0a0a383d283533350189,
  0x30000000800200000400000000120001005800000004000007d822e0000108c19ac0cc13326100e60050008e0101000000000080434305020346141f0000000000000200022d0a0a4c5132444240018a,
  0x30000000800600000440000000120001008700000024000007d826e0a40908c59ac0ce137271034d00aa00ef0101000000000080434305020346141f0000000000000300032d080a656f3c585654018b,
  0x210000001092000000000000080000000032000000000000002823c000000005ba80841706200014001e00310501000000005a783333040403460f7f000000000000004001ff02001e1e3c1e3728018c,
  0x21000000109200000000000008000000004b000000000000002823c000040005ba8084170620009b003c00770501000000003c781616040403460f7f000000000000008002780200282850324b37018d,
  0x21000000119200000000000008000001006f000000000000002823c0000c0005ba808417462000f9007800da05010000000000781616040403460f7f000000000000000c032d02003c3264467855018e,
  0x30000000400200010d800000000600000043000000000000021822e001040101ba00ad933e2000c8003200320501000000005a8d6d56050200460f7f000000000000000101ff000028231f282d3b018f],
  [0x30000000e00200010d80000000060001006400000000000007d822e0210c01c1ba00ad937e20013b006400900501000000003c8d6d56050200460f7f0000000000000008027f0a003c37473c554f0190,
  0x1000000000200000000000008010000003200000000000000000000080000000000000000000016001e002700010000000000323d3d030303460f7f000001150000001001ff06062919192919250191,
  0x210000000046000080000000080100010064000000000000029a22c50c2800219a80c4134e2100ff0064008600010000000000654444030303460f7f0000011500000008022d060633374133554d0192,
  0x201000004002000100200000001000000043000000000000008872c001a00100ba0085938230005f00320035010100000000783e164f05050346147f000000000000000401eb0c0c22282d22412d0193,
  0x20100000400200010020000000100001005e000000000000008872c001a00100ba00859382300131005a007f0101000000005a3e164f05050364147f000000000000000802780c0c313c3c31553c0194,
  0x201000004002000101200000001000010079000000000000008872c001a80100ba008593c23001a4008c00eb010100000000003e164f05050346147f000000000000000c032d0c0c4f5f464f78500195,
  0x20020000040a000000000000084200000028000000000000001ca2e0142000109a08a4330720000c001400384301000000007866261e0f0f0346147f000000f50000010001ff030b463237231e280196,
  0x20020000040a00000000000000420001005e000000000000001ca2e8142800109a08a43347200091005a00e84301000000000065261e07060346147f000000f500000300034b030b697d5a41463c0197,
  0x31040000400200016104000038200001005e000000000000028a22c0a4520480ba748fd33630013b005a0046010100000000007d6868010101461e1f0000000000000004012d05051e1e3a287d430198,
  0x33040000620200016104000038200001008300000000000002da22c2a45a0488ba74cfd37630040100a000ad010100000000007d6868010101461e1f0000000000000008022d050532413a3ca5610199,
  0x300000004002000100640000002000000043000000000000028826c0a05004009b748fd33e30023a00320046070100000000002b0505010101461e1f0000000000000010012d0805582a1e762a1e019a,
  0x320000004002000100670000002000010074000000000000028826c0a05804009b748fd37e3005d7008200ad070100000000002b0505010101461e1f0000000000000020022d08058a2f1ea8343c019b,
  0x2000002000000000100000028000000000000000000000000000000000001020000220014002d070300520000008e3d3d030300460f7f0000000000000400017806062d1d242d1d28019c,
  0x61020000040a000002000000085100000043000000000000000822f418280010ba00b43b47200041003200940703005402d5008e6b6b030300460ffe000000de00000800022d0b06694f24553b3c019d,
  0x60000000148200000200000000110001005e000000000000000823d418282010ba80b43f472000e9005a0094020100000000006e4444030300460f00000000de00000104022d0206325e42325e46019e,
  0x1000000008200000000000000010000003200000000000000000000000000000000000000000037001e003102010000000000377676030303460f1f0000005e00000040017802062a1e462a1e1e019f,
  0x21000000108200000000000000110001006f000000000000001823c508282880ba88841747210181007800a6020100000000007f2e2e030303460ffe000000f500000410022d020666502866504601a0,
  0x201000004002000102a000001c460000003b000000000000001823e001a001819a008d93822000270028008e080100000000780a3532060500640a7f000000000000004002c80c0c5a2d5f462d3c01a1,
  0x20000000a00200010c00000040000000005200000000000007ca22c0000000419a40cc1332e00127004600420501000000007829212105020046147f000000000000004001be0a0a1e3c5523413701a2,
  0x20000000a00200010c00000042000001006a00000000000007ca22c0000a00499b40cc137af0014f006e00ad0501000000005a29212105020046147f0000000000000080024b0a0a32557337695501a3,
  0x20120000040a00000000000000400000003b000000000000000ca2e0042000109a00843906200021002800370901000000000022222207060046147f000000ef0000010001be0b0b353e232d232d01a4,
  0x20120000040a000000000000004000000043000000000000000ca2e0042800109a0084394620005d0032009e0902005602e1007a7a7a07060046147f000000ef00000200024b0b0b4e5755463c4601a5,
  0x200000008202000004040000000000000032000000000000044822c4000000409a0084133260003f001e0041060200570000009f723c0b020046147f000000000000000101be0a0a3e392230304c01a6,
  0x20000000820200000406000000000001005e00000000000007c822c4a06800409a5a8e137260012b005a00a6060200580000009f723c0b020046147f0000000000000002024b040a525c2744536f01a7,
  0x28040000e0260001008800007f420001006f000000000000029a23f0010f2080fa80edb34e2100cb007800a9060100000000005c356505050464147f0000000000000080022d0000423c7342644b01a8,
  0x64240000428700000401000000000000003b000000000000001822d01322f100ba00b5930628000c00280046060100000000008a546a0b0b02461e7f0000000000000001017d02072c3c4622325a01a9,
  0x64240000428700000401000000000001006f000000000000003822d0132af100ba00b59346280096007800ae060100000000008a546a0b0b02461e7f0000000000000002023c0207365a502c509601aa,
  0x21180000e8420001808100007b020000003b000000000000021a22e0010401809a00acb316200037002800460501000000000007673208050000147f000000000000004001be0000382c552c423701ab,
  0x21180000e8420001808100007b020001006f000000000000029a22e0010c0188da00adb37620014d007800a8050200590337000767380805008c147f0000000000000080023c0000603669544c4101ac,
  0x68e40000424200009409000008000001005e000000000000000d2ad0112a5111bb80b5934e28002c005a00ad060100000000001a1a1a0b0b0423197f0000000000000500022d07076969693c3c3c01ad,
  0x28040000119200001508000008000001005e000000000000002962d0110e4c04bb80b4174e280111005a00b10401000000000099690f04040323147f0000000000000008021e0210346947347d6401ae,
  0x28000000c006000180880000000600000043000000000000001823d010270001bb80ad930e2100270032003e070100000000003314070505044614bf000000000000004001be0000252a552a373101af,
  0x28000000c006000180880000000600010064000000000000001823d0302f0001bb80ad934e3101b60064009e0701000000000080142f0505044614bf0000000000000080024b00003b407040524701b0,
  0x6c30000040470000a4910000081000000028000000000000000c2af0112001019b01b41b8e2c000600140039020100000000781a1a1a0f0f0446197f000000e00000010001780d0d32412d321e2d01b1,
  0x28000000000200011008000000000000003b000000000000021962c000038400bb2cac130f3100c00028004206010000000000336a0105050046147f000000000000004001e1100329294a2f3f3f01b2,
  0x280000000002000110080000000000010064000000000000029962c8000b8400bb2cac134f31017c006400a806010000000000336a0105050046147f0000000000000002023c10033d4754435d6701b3,
  0x74a00000000200000050000000100000004300000000000000082ef0b23201008a51b63b862c025d0032003c0301000000005a86551a0a0a004614ff000000e90000001001ff0d0856181756183901b4,
  0x74a00000000200002052000000300001007400000000000002882ef0b23a81008a51b63bc62c074e008200af0301000000003c86551a0a0a004614ff000000e900000410025a0d08744f2174594301b5,
  0x3018000000220000000e00000a02000000430000000000000008a2c090108000ba50cc51062800960032003a050100000000009b45050f0f0046147f000000000000001001ff05052d0a0a5f503201b6,
  0x6cf00000682200000401000008120000004b00000000000000082af411200180bb01f5bb8e2c0082003c003e09010000000000656f2b0f0f0046197f00000000000004000191110d5a463c2d191401b7,
  0x25100000c8420000a490000008020000004b000000000000000822f0112004819a24b43b866000f4003c006e0901000000000084201e0f0f048c28fe000000e7006e000101820000410f1e05056401b8,
  0x2000000011b2000080000000080000000043000000000000002823c000000005bb8084170e2000130032009004010000000000914d3304040323147f0000011500000004021e02002a5c5b2d414c01b9,
  0x28a40000c202000014080000080000010064000000000000000962d4102c5800bb40b4134e280438006400aa06010000000000972e2e0b0b00461e7f0000000000000410026410076c5c236c5c3201ba,
  0x320000000002000140040000002000000052000000400000029822c0a04104009af48e13063300cd0046003c0101000000005a1808080e010546287f0000000000000004012d040f2d282a2d463a01bb,
  0x320000000002000140040000002800010079000000400000029822c0a04104009af48e1306330230008c0090010100000000001808080e010546287f0000000000000008022d040f373252415a4401bc,
  0x32000000000200014804000000280002009000000040000002d822caa44904a09af4ce13463303b600be010e0102005a0311001808080e010546287f000000000000000c032d040f5550665f826c01bd,
  0x2c080000e0020000a58000007c420000004b00000000000002ca22c0a00404809a74f7b33620041a003c004e04010000000000522f350f0f0546281f000000ea00ea00010132000055280528558701be,
  0x201000002822000120600000520800000052000000000000028a22c8a4070088da40ce1306b000ca00460039010100000000789e27500f0f0346191f0000000000000004014b010128233c28462801bf,
  0x20100000a82200017060000052080001006f000000000000028b26c8a44f0088da40fe1346b9021c007800b80102005b0306009a275008050346191f0000000000000104022d080146735a466e4601c0,
  0x300000008002000101040000000000010058000000000000028822c0a00000009a508e11063001ef005000420501000000003c9f2d2d050505461e7f0000000000000010018c04042a26204e484401c1,
  0x300000008002000101040000002000020094000000000000028822c0a04800009a508e1146300bb800c800b8050100000000009f2d2d050505461e7f0000000000000020023c040448442f76706c01c2,
  0x200000000006000118000000000100010058000000000000029922cd0c2200a0bbc8ec130f210078005000420601000000007833610409030546147f000000f50000001001780603371e415a322801c3,
  0x200000000006000118000000000100010074000000000000029962cdac2e00a0bbc8ee134f310267008200af0601000000003c33610409030546147f000000f500000020022d10034b3c5f6e5a4601c4,
  0x281400002826000014080000570c00000052000000000000028b22c9a0064088fb4aee130fa000e60046003c010100000000968f576b080800640a7f0000011900000004018c0103283d32283d3001c5,
  0x281400002826000014080000570c00010074000000000000029b22c9a44e4088fb4aee134fa001bc008200ac010100000000788f576b08080046147f0000011900000008024b0103415655416a5301c6,
  0x20030000040f0000000000000041000100790000000000000018a2e4042a0090ba0884314620010e008c009f0301000000003c1a1a1a07070546197f000000000000000802c80b0b485a2e48644a01c7,
  0x20000000808200000c00000001100000003b0000000000000548a3c0102200409a00841b3260004600280042010100000000002972210c0c0146147f000000000000004001be0a0a3d314238313101c8,
  0x20000000808200000c00000001100001006f000000000000054823c0102a00409a00841b726000f0007800a1010100000000002972210c0c0146147f0000000000000080024b0a0a56455b4c454501c9,
  0x201000008002000004000000011000010064000000000000054822c0a00020409a8086133260028a0064004501010000000000290b210f0f0546197f00000000000004000119020a783c3232142d01ca,
  0x20020000842a000104000000404000010064000000000000000822e0442000109a00a43bb26001f900640043080100000000002b757507010546147f000000f60000000401780e0b3c3e28323e3c01cb,
  0x22020000a42a00010402000040400002009d000000000000028822e0e42800989a40e63bf260054b00dc00ad0802005c0307002b757507010546147f000000f600000104023c0e0b555c3c4b5c5a01cc,
  0x28040000200600011408000042000001006a00000000000002db62d9140f40a8fb81ec137e690154006e00b3040100000000007c2e2e05050323147f000000d900000044022d0e10552d7d41784601cd,
  0x24000000400200000271000000300001006f000000000000000836c013a881008a018593c6200708007800f10701000000000094052a0a0a004614ff000000e900000300031e080c5a823c73464601ce,
  0x20000000e00700012c02000070000001008700000000000002da22d2b60c8488ba74efb37620057800aa00b4090100000000000d0c1401010046147f0000011700000003021e00005f50325f556e01cf,
  0x33040000600200014d06000078a0000200a500000000000002da26caa45b0488ba74cfd376300b0c00f000f10701000000000078741f05010546147f000000000000000c031e0504373728828c7301d0,
  0x21020000460f0000000200000040000200940000000000000298a2ecb42a0098bac9c6314620050600c800bb0101000000000090662207070046147f0000000000000020021e0b0b326e327d646401d1,
  0x201000006002000102200000721a0002008c000000000000028a32c0a1a80188fb44df93ca20056a00b400f302010000000000484e4e08080046193f000001420000000c031e0c0c555f5f437b4b01d2,
  0x201000002012000100000000320a00010083000000000000028a22c0a008148aff64d6b14e2002a800a000f34001000000000048313108080046193f0000014300000300031e09095f7d53435f4b01d3,
  0x21280000f9d20000a081000000120001007e000000000000022c22f0112c04859aa5f43fc624017c009600f548010000000000692037060404460a1f0000000000000600031e02117378505f325501d4,
  0x200000001482000000000000081100020090000000000000000823d018280004ba80b4354620020300be00b403010000000000776e0303030046147f0000010900000008021e020638745f564c5601d5,
  0x20120000044e0001808000000042000100640000000000000288a2e1042c00119a80ac33463000ff006400b80301000000000022666605050023231f0000000000000020022d0b0b413c5f826e4101d6,
  0x20100000804200018c800000001200010058000000000000028822c0400c00019a00ac1376700103005000b80101000000000073515105050023231f0000000000000200022d0e0e5f82416e3c4101d7,
  0x300000001186000118040000000100020094000000000000029923c9ac5a20a4bbd8ce174f2101a900c800b3060100000000005a083403030346147f0000000000000020021e02044b2d5f7d5f4b01d8,
  0x3100000000060000050600000020000200a9000000000000028822c0a04800009a518e13f2700b5e00fa00ef050100000000002f510c05050546147f000000000000000c0332040e3c465050826e01d9,
  0x242000004202000136b9000008100001005e00000000000000092ad011284100aa80b5b376240154005a00f10001000000000094585b0a0a004614ff0000000000000300031e00004b875a46505501da,
  0x6cf000006a060000a0010000721800010083000000000000029e2af9b56c11a9fbc1f69bceac020800a000e90802005d0323009a50500b0b05231400000000000000000c032d010d734150417d4401db,
  0x300000004202000000770000702000010079000000000000028c26c0a1d880009b5087d14e200d48008c00b8070100000000009f2a050a0a0046147f000000ee00000810023c0805964b2891373c01dc,
  0x68a40000220300001410000070000002009d000000000000028b2ad4b02a5188bb40f6137e28042a00dc00ec04010000000000772e2e0b0b0423197f000000f700000810032d070787412d87642d01dd,
  0x28240000c202000004020000401000010074000000000000000822d0512a40809b00b59bfa60010a008200a8080100000000008251510a06004614fe0000000000000080024b070e46506e46504601de,
  0x282400004202000012080000081000000032000000000000000922d011a01100aa01a59386200003001e009a0006005e02d9001a1a1a0b0b004614ff0000000000000140022d070c4d5f5b4d323201df,
  0x74f00000c466000120090000701000000032000000000000000e2bf0112821908a11b5bbc62c0003001e0105020100000000001a1a1a0f0f058c50ff000000000000042003030d0d824b5f824b4b01e0,
  0x74f00000c026000120010000701000000032000000000000000e2bf0112821908a11b59bf62c0003001e0105090100000000001a1a1a0f0f058c50ff000000000000050403030d0d69695069695001e1,
  0x74f00000c026000120810000781000000032000000000000000e2bf0112aa5908b35b59bce2c0003001e0105010100000000001a1a1a0f0f058c50ff000000000000010803030d0d467d73467d4b01e2,
  0x3200000040020001c074000000200002002a00000040000002982ec2b16904038af4c79b76b31aae021c0132080100000000008c2e2e0f0f050078ff000000000000030003030f0864965a78786401e3,
  0x22000000e0020000c814000000000002003100000040000006d82ac2b14904898af4c79b76f30d2001a40132060100000000008c2e2e0f0f050078ff000000000000030003030f0a78966464785a01e4,
  0x3000000000120000504400000821000100870000000000000289a6c0a04a94029f648e314e3010cc00aa010e050100000000003112120f0f05640a7f0000000000000300030308096a824d6a5a5b01e5,
  0x200000006806000025160000702000020036000000000000028aa2c0b15e008882c0c7da462010680172012e080100000000007070700f0f050078ff000000000000000c030300006e50646ea06e01e6,
  0x2204000042020001dc14000000200002003000000040000002b922d2314b11158a80b79b463b1d4c01c201320402006302d8008c2e2e0f0f050078ff000000000000000303030f0778645a78649601e7,
  0x64700000000200002411000000100001007e00000000000000082af0112801109a01b43bd62c03580096010e020100000000001a1a1a0f0f056478fe0000000000000c0003030d0d824b5578467801e8,
  0x20100000804600000480000009120000003b000000000000054c23e0100000c08a00841b3260001f002800d8010100000000005d5d5d0602054628ff0000000000000001031e0a0a50505050505001e9,
  0x601000008046000004800000091200000032000000000000054c23e0102800d08a01b41bf268000e001e010e010100000000005d5d5d060205460aff000000000000000303030a0a64646464646401ea,
  0x28a40000680600001488000000000001007e000000000000029b62d9952f5588abc8f5937e2801f90096010e040100000000007b7b7b0f0f050078ff0000000000000240030310105a877d5a5a4601eb,
  0x21020000040a000020840000004200000028000000000000000ca2e0142800108a009439462000150014010e0302006402d7001e1e1e0f0f036478ff0000009d009d0003032d0b0b64646464646401ec,
  0x36200000c4920001fcd5000000300002003c00000040000007f96ef9b56f1d1b8afdf7bbf67f0c8001400144871200000000007979790f0f050078ff00000000000000030303000078787878787801ed,
  0x60300000403200002081000039100000003b000000000000020e3be01128559a8e24f5b9ce2400280028010e02010000000000a2a2a20f0f056478ff00000000000000030303090d64646464646401ee,
  0x28030000040f00010800000000400000004b0000000100000018a2e0042000109b8184398e280051003c003e030100000000007e414107050346141f0000000000000040012d0b0b372d3f372d2d01ef,
  0x28030000040f0001080000000040000100580000000100000018a2e0042000109b8184398e2800a000500091030100000000007e414107050346141f0000000000000080022d0b0b4b3c534b3c3c01f0,
  0x2a030000040f0001480000000040000200c50000000900000298a2e2042800109b818439ce280276014a00ee030100000000007e414107050346141f00000000000000c0032d0b0b5f4b715f4b4b01f1,
  0x211000000012000121000000000200000043000000020000028832e0020014039e6484310e3000630032003e000100000000002f424205050346141f0000000000000001012d09092d2d2d2d3f4101f2,
  0x211000002012000121000000320200010064000000020000028a32e8a240148bde64c4310e30022b00640092000100000000002f424205050346141f0000000000000008022d0109374637375d5a01f3],
  [0x211000002012000121020000322200010083000000120000028a32e8a24814cbde64c6714eb005dc00a000ee4001000000000078424205050346141f000000000000000c032d0109416441417b6e01f4,
  0x20100000800200010c000000000200000043000000040000075822e1040400e09a808c133a60003b0032003e010100000000004b434305050346141f0000000000000100012d0a0a2d3f2d2d373701f5,
  0x20100000800200010c000000000200010058000000040000075822e1040400e09a808c133a6000f500500091010100000000004b434305050346141f0000000000000200022d0a0a3c533c3c4b4b01f6,
  0x20100000800600010d02000000020001007e00000024000007d822e3040c00e09a808c137a6003b2009600ee010100000000004b434305050346141f0000000000000300032d0a0a466c4655645f01f7,
  0x211800004002000128800000064600000043000000000000001822e0040400809a00ac93062000740032003305010000000000943332050500460f7f000000000000000401ff000027232a27372d01f8,
  0x21180000600600012880000076560001006a000000000000029a22f0152c00889a04ad93c620010e006e00930501000000000094332305050046147f000000000000000802ff0000453c4d45553c01f9,
  0x20180000400200008080000008020000003b000000000000020872c0010c00009ac0ac93063000290028003705010000000000323548050503460f7f000000000000000401ff00002d19372d3c2d01fa,
  0x20180000400200008080000008020001005e00000000000002c872c0010e00009ac0ac9306300093005a008207010000000000719216050503460f7f00000000000000080278000041233c41504101fb,
  0x20180000400200008180000008220001006f00000000000002c872c0010e00009ac0ad9346300262007800e107010000000000719216050503460f7f000000000000000c032d00005a2d505a6e5501fc,
  0x28240000002600019008000004420000003b000000000000001963f011034001bb80a4130e21006500280038060100000000009e540705050046147f000000000000004001ff101025324225322901fd,
  0x28240000002600019008000004420001006a000000000000021963f0110b4001bb80a4134e210177006e009c060100000000009e540705050046147f0000000000000080025a101032586a32584001fe,
  0x25130000242e0001000000000e420000004b0000000000000218a2e000232090fb408c310e210069003c003f0301000000000041525205050046141f000000000000004001be0b0b30354030353201ff,
  0x25130000242e0001010000000e420001006a000000000000021aa2e0802b2098fb40cc314e210131006e00ae0301000000000041525205050046141f0000000000000080024b0b0b3f62653f624b0200,
  0x2511000020360001000000002e020000004b000000000000021822e000033482ff648c310e21006e003c003f4001000000000042525205050046141f000000000000004001be09093035403035320201,
  0x2511000020360001010000002e0200010064000000000000021a22e0800b348aff64cc314e210118006400ae4001000000000042525205050046141f0000000000000080024b09093f62653f624b0202,
  0x25110000a02600010c0000004e020000004b000000000000075822e0000320c0fb408c133a610087003c003f0101000000000043525205050046141f000000000000004001be0a0a3035403035320203,
  0x25110000a02600010d0000004e0200010064000000000000075a22e0800b20c8fb40cc137a610122006400ae0101000000000043525205050046141f0000000000000080024b0a0a3f62653f624b0204,
  0x60ba0000424200002011000000100000004b000000000000000c2ad0932001109b41b41b822c00e9003c003a090100000000008c1c6c050504460a7f000000000000000101be0d0d3743182d194c0205,
  0x60ba0000424200002011000000100001006a000000000000000c2ad0932801109b41b41bc22c025d006e00aa090100000000008c1c6c050504460a7f0000000000000002024b0d0d5f6b1d5537740206,
  0x200000001192000000000000080000000032000000000000002823c0000000059a8084170e200015001e0035070100000000004f6991040403460f7f000000000000000401ff02001e242b3237320207,
  0x20000000119200000000000008000000004b000000000000002823c0000000059a8084170e200096003c007d070100000000004f6991040403460f7f0000000000000008027802002a32413e4d3e0208,
  0x20000000119200000000000008000001006f000000000000002823c0100800059a8084174e200122007800dc070100000000004f6991040403460f7f000000000000000c032d020037415d5073500209,
  0x280000004002000000200000011000010058000000000000000832c001a001009e0085938220012a0050003b040100000000009d4e1f05050046147f000000000000004001be0c0c20324c203c2d020a,
  0x280000004002000000200000011000010083000000000000020832c001a801029e008593c220031b00a000ae040100000000009d4e1f05050046147f0000000000000080024b0c0c3f50743f644b020b,
  0x30000000000200000056000000000000003b0000000000000288a6c0a05080009a508651022000b400280038010100000000009f05050a0a03460f7f000000ee00e5001001ff050519190f554b37020c,
  0x30000000000200000056000000000001005e0000000000000288a6c0a05080009a508651022003fc005a0089010100000000009f05050a0a03460f7f000000ee00e5001402780505283214696946020d,
  0x3000000000020000015600000020000100870000000000000288a6c0a05880009a50867142200a2800aa00e8010100000000009f05050a0a03460f7f000000ee00e5000c032d0505503c19828755020e,
  0x61380000549600002001000008140000003b00000000000000282bd013206114bb81b41f8a2c00150028003f0101000000000056676d040500460f7f000000000000004001be020d2b37482b2d37020f,
  0x61380000559600002001000008140001005e00000000000000282bd013286114bb81b41fca2c0069005a00950101000000000056676d040500460f7f0000000000000080022d020d374d723739430210,
  0x300000000002000000440000008000000032000000000000029822c9a40100809ad8ce1102210055001e004247010000000000689f9205050046147f0000000000000004017804042d1e4428553c0211,
  0x30000000000200000064000000a000000052000000000000029822c9a40900889ad8ce1142210194004600b247010000000000689f9205050046147f0000000000000008023c08044132583c876e0212,
  0x681800002a660001a49100007a120001006a000000000000004e3af0112405819a25bdbbf62c0136006e01860902006503240067908306060446147f0000009e009b000202ff0000563c32563c670213,
  0x20100000280600000102000072000000004b000000000000028a22e880460088da40cc530ea0007d003c003d07010000000000597d3e08080346143f000000000000000401b4010123192337504b0214,
  0x20100000280600000102000072000001006f000000000000028a22e880460088da40cc530ea001900078008e07010000000000597d3e08080346143f0000000000000008025a01013228285569550215,
  0x201000002806000001020000720000010079000000000000028a22e8a04e0088da40ce534ea00366008c00e305010000000000597d3e08080346143f000000000000000c032d010141372d5f8c690216,
  0x210800008002000084040000090000000043000000000000004822c4000000419a0a84130260002d0032003b010100000000000b5d2102020346147f000000000000004001ff0a0a2832402832320217,
  0x31090000a002000084040000090000010058000000000000024822c4200000419a0a8413026000aa00500086010100000000000b5d2102020346147f00000000000000020278040a37414537414b0218,
  0x31090000a8060000840400004b000001007e00000000000002ca22eca00a00c99a4ace134360026c009600e5010100000000000b8f2102020346147f0000000000000003032d040a4b554a4b5f690219,
  0x201000002207000021020000720000010074000000000000028a22e8a04e0088da40ce130ea0022b008200a30001000000000068273e080800461400000000f100000002022d0101551e2d556478021a,
  0x201000002206000021020000720800010079000000000000028a22e8a04e0088da40ce130ea001fe008c00a341010000000000682705080800461400000000f100000008022d01014b1e554b7d4b021b,
  0x20020000040a0000024100000051000000320000000000000018a2f0082200109a00843986280019001e003e020100000000008e2244030303460f7f000000db0000001001ff0b063c282a46352d021c,
  0x20020000040a0000024100000051000000430000000000000018a2f0082200109a0084398628004900320085030100000000008e2266030303460f7f000000db0000002002780b0650322a5a3f37021d,
  0x20120000044e00000241000000510001006f0000000000000018a2f90c2f00349a818439c62900cd007800e1020100000000008e2244030303460f7f000000db0000000c032d0b0650465c50674b021e,
  0x21000000000200000040000000110000003b000000000000020822cc0a0200009a088431072000350028003400010000000000034426030303460f7f000000f50000001001ff0306271e393b2d1e021f,
  0x21000000000200000040000000110001006f000000000000020822cc0a0200009a088431072002490078007e07010000000000034426030303460f7f000000f500000020027803064f282f6337280220,
  0x2900000000020001094000000011000200a9000000000000029822cdae0a00009a488e31472007d500fa00da0001000000000003442603030346147f000000f5000000c0032d030645377059643c0221,
  0x211200000486000000000000004200000032000000000000000ca2f0002000109a0084390e200006001e00380301000000000022979e06070046147f000000000000004001be110b3225423c1b280222,
  0x211200000486000000000000004200000052000000000000000cabf000280090ba00b439ce200042004600a80301000000000022979e06070046147f0000000000000080024b110b4b4d7455433c0223,
  0x201a0000044a0000000000000042000000430000000000000018a2f0002000109a0084390620004200320038030100000000006614220707004614fe000000000000010001be0b0b32461e32232d0224,
  0x201a0000046a00000000000000420001006a0000000000000018a2f0042800109a008439c62000a3006e00a8430100000000006614220707004614fe0000000000000200024b0b0b4b6e5a4b3c460225,
  0x21000000000200002d000000090000010064000000000000055822c0000000409a0084131a6000b4006400a10302006602e200685b780c0c0046287f000000e20000008002190a0a375062415c460226,
  0x3804000000020001180c0000080000000052000000000000001962c0a0464400bb588e110a3100980046003a0501000000000053991605050346147f000000000000000401b410042323412348320227,
  0x3804000020060001180c00000a0000010064000000000000029b62e0a0474480fb58ce110a31014e0064007b0501000000000053991605050346147f0000000000000008025a10042d2d4a2d523c0228,
  0x3a04000020060001590e00000a000001007e000000000000029b62e2a04f4488fbd8ce514ab303c3009600ea0001000000000053991605050346147f000000000000000c032d100446415c50755f0229,
  0x29000000201200002100000028000000004b000000000000028a23e082001482be64cc310e300177003c003f0001000000000027373705050346147f0000000000000004017809092d0f322d5a46022a,
  0x290000002012000021000000280000010074000000000000028a23e0a24a148abf64de714eb003a1008200a80002006702e300a17d7d05050346147f0000000000000008023c0909371e5f378c69022b,
  0x211a00000c0e0000800000000940000100640000000000000008a2e8000000109a80843906200118006400a10301000000000072220b07070046147f000000ef0000020002ff0b0b436a3c43564b022c,
  0x3000000000060000004200000001000000320000000000000298a2c9ac5100009ad08e7102210091001e004100010000000000854b050a030046147f000000ee0000001001be0506232337554132022d,
  0x3000000000060000004200000001000100790000000000000298a2c9ac5900009ad08e71422107d0008c00a600010000000000854b050a030046147f000000ee00000020024b05064b412d7d5f46022e,
  0x280400002806000170480000722c0000004b000000000000028b62ea80460488db48cc530eb20076003c00460201000000000016993d0e0500230f7f000001270000000401b40110462330464b32022f,
  0x2a0400002806000170480000722c0001006a000000000000028b62ea804e0488fb48cc534eb2012c006e00ab0001000000000016993d0e0500460f7f0000012700000410025a0110732d3a735a410230,
  0x606000005192000034110000001000010079000000000000002d2ed011200114ba81b47fd22c008c008c00ac040100000000006e629304040046147f0000000000000200022d020d506761503a480231,
  0x68ac0000422600003043000000000000004300000000000000092ad410225010ba00b41b0228000f0032003d040100000000009898980b0a0046197f000000f70000001001be070741371e551e260232,
  0x68ac0000422600003043000000000001008700000000000000092af4102a5010ba00b41b422802fd00aa00a9020100000000009898980b0a0046197f000000f700000020025a0707695f1e91323a0233,
  0x30000000800600012c46000000000000005200000000000007c822c0a05000409a508e53322000a50046004701010000000000210574090200461e1f0000000000000010012d050a2d3516674e360234,
  0x30000000800600012d46000002200001006f00000000000007c822c0a05800489a508e537220032a007800ad01010000000000210574090200461e1f0000000000000020022d050a415320856c4a0235,
  0x310000001096000168440000090000000043000000000000021823c0a05120049bd08e550a33005f0032004702010000000000818181090400461e1f0000000000000004012d02052d4a462d70370236,
  0x330000001196000168440000090000010079000000000000023823c2a059200c9bd08e554a330140008c00b102010000000000818181090400461e1f0000000000000008022d020541706e418c4b0237,
  0x240400000e0200001000000004400000004b000000000000000922c400028000ba0a841307200136003c0042030100000000006a3c010a0a0046147f000001190000004001be03033e28413e32320238,
  0x240400000e02000010000000044000020090000000000000000922c4001a8088ba0a94f34720043100be00a6430100000000006a85010a0a0046147f0000005c01190008023c0303523c4b525f500239,
  0x282400000006000090080000090200000052000000000000001963e014064480bb80ac130e39007d004600424701000000000095959505050346191f0000000000000100014b1010285041284128023a,
  0x2824000000060000900800000b0200010083000000000000021963e0140f4488fb84ac134e39032b00a000b30701000000000095959505050346141f0000000000000200022d10103c78693c693c023b,
  0x2018000040060001888000000c420000003b000000000000000c23e001040081ba008c9b0628003a0028003c070100000000005c6538050504460fbf000000000000004001ff000028284b283237023c,
  0x2018000040060001888000000c4200000043000000000000000c23e0010c0089ba008d9bc628004b003200a5070100000000005c6538050504460fbf0000000000000080023c00003c41733c5f4b023d,
  0x6c700000406200002019000008120000003b00000000000000092af091224190bb41b49b8a2c003a0028003a0601000000000017ac770808034614bf000000000000040001c80d0d41372d321e2d023e,
  0x6c700000406200002019000008120000005200000000000000092af091224190bb41b49b8a2c00b4004600890601000000000017ac770808034614bf000000000000080002640d0d554b37462d3c023f,
  0x6c700000406200002019000008120001007e000000000000000b2af0912a4190fb41f49bca2c01b8009600dd0601000000000017ac770808034614bf0000000000000c0003320d0d6e5f415f37460240,
  0x69b80000422200002051000000100000003200000000000000082ed49320c0109a41b51b822c000a001e003a4301000000000090628e0b0b0346147f000000000000010001c80d0d326914281e2d0241,
  0x69b80000422200002051000000100000004b00000000000000082ed49320c0109a41b51b822c0050003c00820301000000000090628e0b0b0346147f000000000000020002640d0d3c7d1e3228410242,
  0x69b800006a26000021510000701000010064000000000000028a2ef49328c0989a41b51bc22c00c9006400dd0301000000000090628e0b0b0346147f000000000000030003320d0d557d1e4b416e0243,
  0x210000009082000004000000080000000043000000000000046822c0000000449a808417126000370032003d010100000000005d913304020046147f000000000000000101be020a322c37322c3e0244,
  0x210000009182000004000000080000010074000000000000046822c0000800449a808417526000f2008200a6080100000000005d913304020046147f0000000000000080022d020a3f57623f574b0245,
  0x20000000800200000461000008100000003b000000000000000826c0400080009a008413ba6000390028003d080100000000008573730a0a0546147f000000000000010001ff0e0e3c412c3232240246,
  0x20000000800200000461000008100001006a000000000000000826c0400080009a008413ba60019a006e008a080100000000008573730a0a0546147f000000000000020002780e0e4b503b4141330247,
  0x200000008002000004610000081000010074000000000000000826c0400880009a008413fa60023f008200f1480100000000008573730a0a0546147f0000000000000300032d0e0e5f6e4f555f470248,
  0x20020000040a00000080000001400000004b0000000000000008b2e0012400119a00a43b862000c3003c004302040068000000209d2205050046147f000000000000004001be0b0032284b323c3c0249,
  0x20020000040a0000008000000140000200900000000000000218b2e0052c00119a00a43bc620039d00be00a60504006b000000209d2205050046147f0000000000000008024b0b00463c5f466450024a,
  0x20100000508600010280000000120000003b000000000000001833c001a021809a8085978a20003200280096080100000000004e090905050046147f000000000000008002c8020c3c4b673c4b37024b,
  0x200000000406000000400000009100000043000000000000001822cd0c0000309a8084130220003b0032003f01010000000000633d44030300460f7f000000000000000401c806062d283c2d4b32024c,
  0x20000000040600000040000000b100010064000000000000021822cd0c0800389a8084134220014a006400ad070100000000008e4b44030300460f7f0000000000000008024b0806693c14698746024d,
  0x200b0000040a0000000800000040000000280000000000000008a2e0002200109a0884330720000a0014003b08010000000000901b1b07070046147f000000570056000101be030b37370f2d3745024e,
  0x200b0000040a00000008000000400000004b0000000000000008a2e0002a00109a08843347200069003c00a248010000000000901b1b07070046147f0000005700560002024b030b50551e465572024f,
  0x20240000c60300001401000000000001006f000000000000054d2ad0102010509a0ab41b3a60014a007800430801000000000006820b0b0b0046147f000000000000040001be070a5541283228370250,
  0x20240000c60300001401000000000002009d000000000000054d2ad0102810509a0ab41b7a60054600dc00a80801000000000006820b0b0b0046147f0000000000000800023c070a69553c463c640251,
  0x20100000820600000401000001000001006f000000000000054822c0100000409a00b41bb268013c007800a509010000000000905d830c020446287f0000000000000002024b0a0a2d2841504ba50252,
  0x20010000440200000220000001110000001b000000000000001832cd09a00110ba00849382200006000a004002010000000000447f0e03030046147f000000000000004001be0c06323941322f320253,
  0x200100004402000002200000011100010058000000000000001832cd09a80110ba008593c220008f005000a502010000000000447f0e03030046147f0000000000000080024b0c063c616c3c4d460254,
  0x31020000040600000070000000600000004b0000000000000208a6c8033280108a0084b1062100bc003c003d07010000000000a0a0a00a070046147f000001200000001001ff080b56180a5b322c0255,
  0x3102000004060000007200000060000100640000000000000298a6e8273b80108a9085b14621044c006400ab070100000000006ba0a00a070046147f0000012000000020025a080b743614835e4a0256,
  0x240000004003000000710000081000000032000000000000020836c0019001008a108491422000d2001e003c470100000000001d3a390a0a034614ff0000000000000010018208083c2d1e4637280257],
  [0x24000000400300000071000008100000004b000000000000020836c0019001008a108491422001fe003c009a470100000000001d3a390a0a034614ff0000000000000020023c08085546325f503c0258,
  0x24000000400300000071000008100000004b00000000000002083ec0019801008a1085914220032a003c00ea470100000000001d3a390a0a034614ff0000000000000030031e080855465a73643c0259,
  0x2000000000000000280000000000000000000001000100000000000000000300140037080100000000001a1a1a0b0b0546147f000000000000004001be0c0c282d3c283723025a,
  0x20010000440700010820000001140001006f000000000000000837c001a021009a008593822000dc0078008e010100000000001a1a1a0b0b0546147f0000000000000008023c0c0c464b28465541025b,
  0x220100006c07000149200000311400020099000000000000029a37e281a821009a44c593c233032500d200e8010100000000001a1a1a0b0b0546147f000000000000000c031e0c0c506932507355025c,
  0x6ca80000422200003011000008100000004300000000000000092ad091204115ba41b49b822c005a0032004301010000000000941c8c08080046147f000000000000010001ff0d0d37551e373737025d,
  0x6ca80000422200003011000008100001006400000000000000092ad091284115ba41b49bc22c0159006400aa05010000000000941c8c08080046147f0000000000000200025a0d0d5f7d284b4b4b025e,
  0x20240000421200001000000000000000003200000000000000092ad010225412be24b4390e28001f001e0037480100000000009731120b0b0346147f000000000000010001be0907374114371e32025f,
  0x20240000421200001000000000000000004b00000000000000092ad010225412be24b4390e280082003c0082040100000000009731120b0b0346147f0000000000000200025a09073c5f373c283c0260,
  0x20240000421200001000000000000001006400000000000000092ad0102a5412be24b4394e280157006400ea040100000000009731120b0b0346147f0000000000000300032d09075a91505a373c0261,
  0x23000000400200014900000000080000004b000000400000029822c9040a04a09ac08c130e3300b4003c0040030100000000007f684f0e010523287f0000000000000004014b0f0f281e393c572e0262,
  0x230000004002000149000000020800010064000000400000029822cb040b04a09ac08c130e33016800640090030100000000007f684f0e010523287f0000000000000008023c0f0f3228434675420263,
  0x23000000400200014900000002080002008c00000040000002d822eba40b04a89ac0ce134e33041f00b400f3020100000000007f684f0e010523287f000000000000000c032d0f0f463c615a934c0264,
  0x20000000a00200000500000042020000004300000000000002da22e0400100819ac08c13326100550032003d080100000000009b515105050046147f000000000000000401780e0e283c282846370265,
  0x20000000a0020000050000004202000200ac00000000000006da22e0e44900899ac0cc137af10a28010400aa0801000000000021515105050046147f0000000000000008023c0e0e504632506e5f0266,
  0x20000000800700000441000000100001006a000000000000000826c84000a0009a018433f26005c8006e00aa010100000000001a1a1a0a0a004619ff000000f60000080002190e0e875f691e32460267,
  0x20010000040200000000000000110000003b000000000000000822c4080000109a0884130320004d0028003d000100000000008e4b5d030300460f7f000000000000001001c806064128195528320268,
  0x200100000406000000000000001100010058000000000000000823c4080800189a188413432000fd005000ad00010000000000543c5d030300460f7f0000000000000080024b06063c64912846500269,
  0x31040000c20200000a2c0000090000000052000000000000004822c4a16200409a5a8f930220006e004600a5050100000000000807090b020046147f000000ed00000002024b0c0463512054426d026a,
  0x20100000282600000000000003080001005e000000000000028a23e894462088dac1cc130ea800c8005a00460201000000000078902708050346197f000000000000000401b4010132374132552d026b,
  0x201000002826000000000000030800010079000000000000028a23e8944e2088dac1cc134ea80163008c00b30601000000000078902708050346197f0000000000000008022d01013c5f693c7d41026c,
  0x3a000000401200015900000034200001008300000040000002db66c2a00f05889bcc8e534e33056e00a000aa00010000000000687d18010e00461e7f000000fa00000008022d0f0f5a3c305a784d026d,
  0x300000006802000005570000721000010064000000000000028a22e0a2300088ea40f61b122003980064003d430100000000006367590a0a004619ff0000010d0000000401be0704322323324a3b026e,
  0x3000000068020000255700007210000200b400000000000002aa26e0a2780188ea40f6bb52200ce4011800a9430100000000006367590a0a004619ff0000010d00000008025a0704503737507c59026f,
  0x380400000026000010680000022800000043000000000000021b62e9051740a0fbd0cc130a21006600320044000100000000002e278008080023147f00000000000000040178081028283c46552d0270,
  0x380400000026000010680000022800010083000000000000021b62e9055f40a8fbd0cc134a2102bc00a000ac000100000000002e278008080023147f0000000000000008022d0810463c46647d410271,
  0x23000000000200002100000008200001008300000000000002d832c8a44e00009ac086130e2003b200a000ac050100000000002b9d7805050046147f0000000000000008022d00005f28375f6e5f0272,
  0x20000000109200000100000000000000004300000000000002b823c0800502049ac0841706a100690032004608010000000000377d33040405461400000000000000000401be020032253c3253460273,
  0x20000000119200002100000000000001007e00000000000002b823c0800d02049ac0841746a1019a009600b300010000000000807d330404054614000000000000000008023c02004b39504b7b640274,
  0x2800000010960000100a0000000000000043000000000000023963c010064404bbc0a4170e20005a0032004a05010000000000858e910404052314fe000000000000001001be0210412d3c4b37460275,
  0x2800000011960000100a000000000001006f000000000000023963c0100e4404bbc0a4174e20018b007800b305010000000000858e910404052314fe0000000000000200023c02105f375069416e0276,
  0x2c0100002417000001000000320100010079000000000000021a22c000091488bae48c330e210244008c00a94001000000000049125205050046147f0000000000000200025a09094269414261550277,
  0x210000000002000001400000002100000032000000000000029826c1895d00109ad08c110221014a001e00a90701000000000036374403030046147f0000000000000020025a080630306d706d3a0278,
  0x2204000040020000f9040000080000010058000000400000028922c211000400bb0084130e3000ad0050003c010100000000003737370e0e0523287f0000000000000004012d0f10322d263241340279,
  0x2204000040020000f9040000080000010079000000400000028922c211000400bb0084130e3001f4008c0093010100000000003737370e0e0523287f0000000000000008022d0f1046413a465548027a,
  0x2204000050920001f904000008100002008c00000040000002e927c2b14a250dbb6586174e30064000b4010e010100000000001a1a1a0e0e0523287f0000000000000300032d0f105a7d625a695c027b,
  0x20000000041200002020000000110001006a000000000000000833c0080034028e24943986280120006e00480801000000000044313103030546287f0000000000000004012d090637323c375537027c,
  0x200000001492000020200000001100010083000000000000002833c8080834028ea4943dc62801cc00a000f80801000000000044313103030546287f000000de00de0300030f0906698764413c55027d,
  0x301000000002000021620000012000020099000000000000029826c915dc00288a9184194a3909c400d20105010100000000009a9a9a0f0f052350ff000000000000003003030108485a6c815a5b027e,
  0x301000000002000021060000002000020090000000000000029822c9b45c00288ad186594a380a2800be0105070100000000009a9a9a0f0f052350ff000000000000000c030301055a486c5a815b027f,
  0x20120000040a0000210200000140000200940000000000000298a2e1146c00388a818439ce3807d000c80105030100000000009a9a9a0f0f052350ff0000000000000c000303010b815a6c485a5b0280,
  0x2000000000b600011508000008000001007e00000000000002a923e0000a6688bb8ad4534aa00276009601050302006e02e800809e9e0f0f055a7800000000000000000c03030202507d6f46734f0281,
  0x20000000402600011308000018000001007e00000000000002a937e0018a4788bb0ad5d34aa00262009601050102006f02e900809e9e0f0f055a7800000000000000000c0303020c507d6f46734f0282,
  0x2200000010920000e004000000000002003c00000040000002b822c2804b148f8e65b43dc6230ce40140013208010000000000a3a3a30f0f050078ff00000000000003000303090f78965a6478640283,
  0x2200000050820000e02400001010000200b700000040000002b836c281eb018d8a41b59fc2230d7a0122013204010000000000a4a4a40f0f050078ff000000000000000c03030c0f64785a7896640284,
  0x32000000002600010116000000000001007e00000000000002a823e0a45a80889a5ade5142a802a80096010e0502007002ea007d9f9f0f0f055a78000000000000000300030302045073655a7d590285,
  0x2300000010020000e40400000030000200bb00000040000002b826c2804b008d8a41b41ff6630cb2012c01294703007102e5002e2e2e0f0f050078ff000000000000010503030e0f5a825f5a827d0286,
  0x21100000800200000d80000001020001007900000000000002d822c9144c00688a81841b4a7801e5008c01050202007302e7009a9a9a0f0f052350ff00000000000003000303010a5a816c5a485b0287,
  0x6cf0000068660000a09100007a1a0000004b000000000000028e2bf0116f6199ca00f59bc62d0041003c010e4802007402e4002020200f0f056478ff0000005b005b054003030d0080805a4d4d640288,
  0x240000004402000032f1000004310001007e000000000000002927c5093981108e8595b1f22103390096010e060500750000005858580f0f050078ff0000000000000144030308065f78635f78470289,
  0x211200002e0a000121400000126c00020028000000010000029aa2e8a6670090dac9cc710eb0005a0028003f03010000000000ab414105050346141f0000000000000010012d0b0b2d3026413d38028a,
  0x211200002e0a000121400000126c0002005a000000010000029aa2e8a6670090dac9cc710eb101220046008e03010000000000ab414105050346141f0000000000000020022d0b0b3a38395f4e3d028b,
  0x211200002e0a000121420000126c000200aa000000090000029aa2e8a66f0098dac9ce714eb3038400a000ef03010000000000ab414105050346141f0000000000000030032d010b4b4a407a6b58028c,
  0x204000000012000100090000000200020032000000020000001a22f010005403be24943b8624005e0028003d00010000000000aa424205050346141f0000000000000100012d09093c3e3c282d28028d,
  0x6ce00000401200012009000032020002005a000000020000001a22f010005403be24943b862400910064008f00010000000000aa424205050346141f0000000000000200022d0909465a493a3b3b028e,
  0x6ce0000040320001200900003212000200a0000000120000001e2af010085403be24b43bc62c0186009600f000010000000000aa424205050346141f0000000000000300032d0d0964726848454b028f,
  0x28040000802200000400000001000002002800000004000007da23e0800020c1bac08c533a200046001e003f01010000000000a8434302020346141f0000000000000040012d0a0a2c3e472838290290,
  0x28040000802200001400000047000002005000000004000007db23e0800020c1bac08c533a20006d003c008e01010000000000a8434302020346141f0000000000000080022d0a0a385361343f360291,
  0x2804000080220000140000004700000200a000000024000007db23e0800820c1bac08c537a200190009600ef41010000000000a8434302020346141f00000000000000c0032d100a47677a435f480292,
  0x25000000000200010080000001240002002800000000000002dab3e0a0420080bb58ce5102a000320028002f0501000000005a25a735050500460f7f000000000000004001ff00002420392624260293,
  0x2d01000020060001018c00007f240002006400000000000002dab3e0a44a0080bb58ce5142a001a8006400940501000000005a25a735050500460f7f0000000000000002027f04004d324e4d38550294,
  0x28000000109200000000000000000002001e000000000000002823c004002006be8084150e200011001e00380001000000003cb19191040403460f7f000000000000004001ff020026283e2b322d0295,
  0x280000001092000000000000000000020046000000000000002823c004003406bea484150e2000a0004600860001000000003cb13131040403460f7f00000000000000800278020934385437493e0296,
  0x280000001092000000000000000000020078000000000000002823c004083406bea484354ea100f5007800af0001000000003cb13131040403460f7f00000000000000c0022d0209454a7e47514e0297,
  0x10002001e00000000000000000000000000000000000000000019001e00280414000000001e840e13030300460f7f000000000000001001ff0606191b232823260298,
  0x240000000010002003200000000000000000000000000000000000100000054001e004b0414000000001e843d3d030300460f7f0000000000000020027806061e1b1d3c162d0299,
  0x210000001482000002000000001100020078000000000000000823d418282010ba80943fc62800aa007800b90414007900001e840e13030300460f7f0000000000000141032d0206325a59323450029a,
  0x291000000012000180000000000000020050000000000000028972c020061403be248c330e300087003c004a05010000000000997f4f0505034614e1000000000000010001dc00093649483a323e029b,
  0x2910000000120001800000000100000200aa000000000000028972c0200e1403be248c334e30032f009600b105010000000000997f4f0505034614e1000000000000020002410009426d6a484456029c,
  0x211a0000044a000000010000004200020028000000000000000ca2e0002000119a00943b06280001000a003d0805008c00005ab4a6a60606004614fe000000000000040001e111114f3d2a27262c029d,
  0x211a0000044a000000010000004200020050000000000000000ca2e0002000119a00943b062800090014008208060090031a5ab4a6a60606004614fe000000000000080002781111624b342f2d36029e,
  0x211a0000044a000000010000004200020096000000000000000ca2e0002800119a00943bc6280064006e00f80805009500005ab4a6a60606004614fe0000000000000c00032d11119a704b44414e029f,
  0x20020000040a00012000000000400000003200000000000002c8b2e0a00600109a00cc3306b00136005a00460501000000003cb39d9d05050046147f000000000000000101c80b0b393e3430414202a0,
  0x20020000040a00012100000001400001006400000000000002c8b2e0a00e00109a80ce3346b0038e00aa00ba0501000000003cb39d9d05050046147f0000000000000002022d0b0b5161443e647b02a1,
  0x2914000028060000b10a00007e2a0002002800000000000002db22e0a44700a1dbc8cc1306b00050003c00460801000000005a71685908050046197f000000db0000000401dc0101302e2b3e524302a2,
  0x2b14000028060000b10a00007e2a000200d200000000000002db62eda44f48a9fbc8ce134eb3055000d200ad0801000000005a71685908050046197f000000db000000080241100147453a4e7c5f02a3,
  0x2110000000220001a0800000080000020078000000000000024973e0012c01019a008c1306300118007800a5480a009902ed00a9a9a905050046147f000000000000004002a000005a41663c504b02a4,
  0x2cf00000406200012011000000120002001e00000000000000192ad0112201119b01949b862c0023001e00470701000000003c14973305050046147f000000000000004001be0d0d3c3f4436303e02a5,
  0x2cf00000406200012011000000120002003c000000000000001b2ad0112a01119b01bc9bc62c0055003c00a3080200a202ec3c9e973305050046147f0000000000000080024b0d0d5153684c304a02a6,
  0x200c00004002000000600000002000020050000000000000021826c0860500201a81c41302200014005000410501000000003c6363630a0a0046147f000000000000001001b4070825231c64502d02a7,
  0x200c00004002000000600000002000020050000000000000021826c0860500201a81c4130220002d0050009d0501000000003c6363630a0a0046147f0000000000000020025a0708312d23966e3b02a8,
  0x200c000040020000006200000020000200aa000000000000021826c0860d00209a81e4134620021200aa00ea050200a303083cb0b0b00a0a0046147f0000000000000420032d070896323c96323c02a9,
  0x61180000004200000001000000020000001e000000000000000c2ed0122001119b019493862800050014004409010000000032a5838306060046147f000000000000000101c81111413f173c344e02aa,
  0x61180000084200000001000000020000001e000000000000000c2ed0122801119b019593c62c009b005000a209010000000032a5838306060046147f0000000000000002028c111159631d48486502ab,
  0x211900000042000000010000000200020028000000000000004c22d010200010ba04949b86280023002800440801000000001e54afaf06060046147f000000000000001001c81111393b3142303e02ac,
  0x211900000842000000010000000200020050000000000000004c22d010280010ba04949bc6280032005000a80801000000001e54afaf06060046147f0000000000000020028c11114b554856505202ad,
  0x28040000002700001108000000000002002800000000000000192ac090264080bb8594938e2800230028003a0101000000003c97157e0c020046147f000000000000000401be0d102e252d35363502ae,
  0x2804000000270000110a000000100002009600000000000000192ac0902e4080bb859493ce2c01d6009600a90101000000003c97157e0c020046147f000000000000000802500d104b4449585c5602af,
  0x31100000800200000440000000080002001e00000000000002daa2eda45340e0bbdace5b3a2101360032003d0501000000001e7c61b509090046147f000000000000000401780a0538273243342a02b0,
  0x31100000800200000544000002080002008c00000000000002daa2eda45b40e8bbdace5b7aa303c0008200af4501000000001e7c61b509090046147f0000000000000008022d0a0556364473694802b1,
  0x22000000c00200014c000000050000020032000000000000054822c0000000409a0aa49303600049003200400501000000003c5b8f260e020046147f000000000000040001e10a033c3c1e3c3c3202b2,
  0x22000000c00200014c0000000500000200b4000000400000054822c2000800489a0aa5934360032f00b400ad0501000000003c5b8f260e020046147f000000000000080002370f037b612c5a4b4102b3,
  0x20100000800200014c000000010000020032000000000000055827c0840000409a0a8453132000530032004241010000000000b2b2b2090205460f7f000000000000010001e10a0a3f3a2c3e353202b4,
  0x20100000800200014c000000010000020050000000000000055927c0840800489a0aa453532001610082006441010000000000b2b2b2090205460f7f000000000000020001370a0a59783b58494702b5,
  0x200000004002000102200000001000020032000000000000005933e2b1a00100da508d938220003c0032003a0201000000005a5e08570e010046147f000000000000004001be000c2b3d4621262c02b6,
  0x2000000040020001c2200000321000020064000000000000005933e2b1a80108da508d93c22000d2006400a80201000000005a5e08570e010046147f0000000000000140024b000c5e6d6d34373e02b7,
  0x3200000000020001e1460000002000020050000000400000028922c2a05000009ad0ce1106330104005000480501000000000005adad0e0100461e1f0000000000000004012d0f052d2d304d593a02b8,
  0x3200000000020001e14600000020000200fa000000400000028922c2a05800009ad0ce1146330a8c00fa00b60001000000000045adad0e0100461e1f0000000000000008022d0f053b454777795202b9,
  0x3200000080020001ac6400000020000200820000000000000209a6d2f17001019a51849bf27800fc008200480101000000000075aeae010100461e1f0000000000000001012d0e053f432e323b4d02ba,
  0x3200000080020001ac64000000200002010e0000000000000209a6d2f17801019a51979bf27808ca010e00680101000000000075aeae010100461e1f0000000000000002012d0e055c633a484d7b02bb],
  [0x601000000042000180810000000200010064000000000000001c22c0102c00019a01ac1bc62c00eb006400b849010000000000b6383805050046231f0000000000000800022d1111826e3c41415f02bc,
  0x21100000398200002180000033280001006400000000000002ba23e9844e22acdbc0cc170ea100d7005000af0301000000003268540708080046147f000000dd00000008026402013f4a764b5c4e02bd,
  0x241000004002000102a00000101600020014000000000000001833e001ac0180ba808d9306200016001400970201000000001e3935a706050046147f000000000000008002b4110c435165393a4302be,
  0x708800000002000000750000000200000032000000000000000caac0927080008a51945986680039001e006407010000000050051d1d0a06054619ff0000000000000410013c110596323296323202bf,
  0x22000000c002000140000000000000000032000000400000000822c4800000009a0a84930620001c001e003c06010000000078b75d9d0e0e0523287f0000000000000400012d0f0f4b372823322d02c0,
  0x22000000c002000140000000000000000032000000400000000822c4800000009a0a8493362000af0050009e06010000000078b75d9d0e0e0523287f0000000000000800022d0f0f71533c354b4402c1,
  0x22000000e002000149000000300000000032000000400000028822c6a00804089a2e8793766005e100c8010e06010000000078b75d9d0e0e0523287f0000000000000c00032d0f0f966e5046645a02c2,
  0x244000000002000000e90000000200000064000000000000001c26c011080000bb01941bc62c001e001400a5470100000000c8aa9e9e0a0a0446147f0000000000000010024b110857504b5b503902c3,
  0x6026000006220000100900000040000200280000000000000299aaf8a0011010ba01bc39062000460028003e050100000000788b771e0b070046147f000000000000000401780b073c322630462b02c4,
  0x602600000e220000100b0000004000020096000000000000029baaf9a0091018ba01be39462902c6009600a6050100000000788b771e0b070046147f0000000000000008023c0b075241384c6e5502c5,
  0x6026000006280000100900000040000200140000000000000209aaf082209510be2cb4398620003200280043050400a403145a0f77350b0b0046147f000000000000001001780b07372c3346423102c6,
  0x60260000062800001009000000400002005a0000000000000209aaf082289518be2cb439c620007d005a00ad050400a703175a0f77350b0b0046147f0000000000000020023c0b074b3a547a5a4102c7,
  0x2008000080020000044000000000000200c800000000000002c826c0c27000009a40841b326003e30064003d0101000000001e05731401010046147f000000000000001001be0e0e23201c55453702c8,
  0x2008000080020000054200000020000200c800000000000002c826c0e27800009a40861b727013ba00c800b40101000000001e05731401010046147f000000000000002002370e0e2e2c1cb8755f02c9,
  0x2a00000091920001d000000008040000003c000000400000003933d100012005bb80f4350e200050003200310601000000003c8c977704040046147f000000000000004001be0f02282d37231e2802ca,
  0x2a00000091920001d000000008040000003c000000400000003933d10009200dbb84f4354e230352009600bb0601000000003c8c977704040046147f0000000000000080022d0f0250617b50465502cb,
  0x2380000000020000a01200000000000200c8000000000000001ca6e0912800098a019593c67c0866012c0132010200aa000000bbbbbb0f0f050078ff0000000000000003032d11116283635f837e02cc,
  0x2000000011960000b00a00000000000200c8000000000000003963d08009620cab80b4174e2307ee0244013200010000000000bababa0f0f050078ff0000000000000003032d02106283635f837e02cd,
  0x2204000042030001e10600000000000200c8000000400000028822e2a04800088a12ce1946200bea01f4010e43010000000000bcbcbc0f0f050078ff00000000000000030303040f5f515f79646c02ce,
  0x719800000042000000f40000000200000032000000000000000caac0927880008a519459c66c00580046010e090200ab032a501d1d1d0f0f054619ff00000000000008100303110596643296643202cf,
  0x6ce0000068260000209b00007c1a0000003c000000000000000b2af011284998ab01f49bce2c005a0032010e060200ac033500aaaaaa0f0f056478ff00000000000003000303070d8296463c6e5002d0,
  0x2000000080120000010400000000000200c8000000000000029826c0a24894ca8e3ec6714630079e00aa010e050100000000000b0b0b0f0f056478ff000000000000030003030a095a8246786e5002d1,
  0x7ca00000e8230000211100000210000000aa000000000000029b2ef891280198cbc1f5bbde2c026000aa010e000400000000002e2e2e0f0f050078ff000000000000010803030d0d14b49614b43202d2,
  0x7ca00000e8270000205100000210000000aa000000000000029b2ef891280198cbc1f5bbde2c026000aa010e000400000000002e2e2e0f0f050078ff000000000000042003030d0da0465aa0463202d3,
  0x7ca00000e8270000201100007210000000aa000000000000029b2ef891280198cbc1f5bbde2c026000aa010e000400000000002e2e2e0f0f050078ff00000000000000c003030d0d5a5fb45a5f3202d4,
  0x710000000002000002040000081100000032000000000000000822d438280000ba50be1b4720004100320094070300000000008e6b6b030300460ffe000000de00000020022d0406553b24694f3c02d5,
  0x7100000000020000026000000c3100000032000000000000000826d41a280000ba00b41b4720004100320094070300000000008e6b6b030300460ffe000000de00000410022d08065f45245f453c02d6,
  0x20020000048a000020800000004200000028000000000000000ca2e0142800108a009439462000340028010e430200000000002020200f0f036478ff0000009d009d00c0032d020b4b787f4b676402d7,
  0x2204000040820001dc1500000020000002b200000040000002b922d2314b11158a80b79b463b196402b20132040200000000001a1a1a0f0f050078ff000000000000000303030f0764785a64789602d8,
  0x28240000420200001208000008100000001e000000000000000922d011a01100aa01a59386200003001e00b6000600000000001a1a1a0b0b004614ff0000000000000140022d090c6b69566b413202d9,
  0x28240000420200001208000008100000001e000000000000000922d011a01100aa01a59386200003001e00b6400600000000001a1a1a0b0b004614ff0000000000000140022d0a0c6b69566b413202da,
  0x28240000420200001208000008100000001e000000000000000922d011a01100aa01a59386200003001e00b6000600000000001a1a1a0b0b004614ff0000000000000140022d0e0c6b69566b413202db,
  0x28240000420200001208000008100000001e000000000000000922d011a01100aa01a59386200003001e00b6000600000000001a1a1a0b0b004614ff0000000000000140022d020c6b69566b413202dc,
  0x28240000420200001208000008100000001e000000000000000922d011a01100aa01a59386200003001e00b6000600000000001a1a1a0b0b004614ff0000000000000140022d0b0c6b69566b413202dd,
  0x20000000c08200000480000000000000001e000000000000000822c011240450ba34a5b336600008001e0093080400000000003b3b3b0b060046197f000000f300f30001022d090946464646464602de,
  0x20000000c08200000480000000000000001e000000000000000822c011240450ba34a5b336600008001e0093080400000000003b3b3b0b060046197f000000f300f30001022d0a0a46464646464602df,
  0x20000000c08200000480000000000000001e000000000000000822c011240450ba34a5b336600008001e0093480400000000003b3b3b0b060046197f000000f300f30001022d0e0e46464646464602e0,
  0x20120000040a000000000000004000000032000000000000000ca2e0042800109a0084394620005d0032009e090200000000007a7a7a07060046147f000000ef00000200024b0b0b4e5755463c4602e1,
  0x21000000000200002d000000090000000064000000000000055822c0000000409a0084131a6000b4006400a103020000000000685b450c0c0046287f000000e30000008002190a0a375062415c4602e2,
  0x290000002012000021000000280000000082000000000000028a23e0a24a148abf64de714eb003a1008200bd00020000000000a17d7d05050346147f0000000000000200023c0d09698c37691e6902e3,
  0x6cf0000068660000a09100007a1a0000003c000000000000028e2bf0116f6199ca00f59bc62d0041003c010e480200000000002020200f0f056478ff0000005b005b0054030301004d4d805a806402e4,
  0x2300000010020000e404000000300000012c00000040000002b826c2804b008d8a41b41ff6630cb20168013b47030000000000a3a3a30f0f050078ff000000000000030003030e0f64aa5f5a787d02e5,
  0x2300000010020000e404000000300000012c00000040000002b826c2804b008d8a41b41ff6630cb2014a013b47030000000000a4a4a40f0f050078ff000000000000000c03030e0f5a785f64aa7d02e6,
  0x21100000800200000d80000001020000008c00000000000002d822c9144c00688a81841b4a7801e5008c0105420200000000009a9a9a0f0f052350ff00000000000003000303010a5a816c5a485b02e7,
  0x2000000000b600011508000008000000009600000000000002a923e0000a6688bb8ad4534aa00276008c0105030200000000009090900f0f055a780000000000000000c0030302025a6e7950644f02e8,
  0x20000000402600011308000018000000009600000000000002a937e0018a4788bb0ad5d34aa00262012c0105010200000000000a0a0a0f0f055a780000000000000003000303020c50916546694f02e9,
  0x32000000002600010116000000000000009600000000000002a823e0a45a80889a5ade5142a802a80082010e050200000000001616160f0f055a7800000000000000000c0303020450695b5a915902ea,
  0x68a400002e26000014080000780000000096000000000000028f2adc100bd098bb08f5934f200195008c010e060200000000001717170b0b0346147f0000000000001300032d03075faa8250413c02eb,
  0x2ce00000406200012011000000120000003c000000000000001b2ad0112a01119b01bc9bc62c0055003c00a30802000000003cac973305050046147f0000000000000080024b0d0d5153684c304a02ec,
  0x2110000000220001a0800000080000000078000000000000024973e0012c01019a008c1306300118007800a5480a0000000000a9a9a905050046147f000000000000004002a000005a41663c504b02ed,
  0x2110000000220001a0800000080000000078000000000000024973e0012c01019a008c1306300118007800a5480a0000000000a9a9a905050046147f000000000000004002a000005a41663c504b02ee,
  0x2110000000220001a0800000080000000078000000000000024973e0012c01019a008c1306300118007800a5480a0000000000a9a9a905050046147f000000000000004002a000005a41663c504b02ef,
  0x2110000000220001a0800000080000000078000000000000024973e0012c01019a008c1306300118007800a5480a0000000000a9a9a905050046147f000000000000004002a000005a41663c504b02f0,
  0x2110000000220001a0800000080000000078000000000000024973e0012c01019a008c1306300118007800a5480a0000000000a9a9a905050046147f000000000000004002a000005a41663c504b02f1,
  0x2110000000220001a0800000080000000078000000000000024973e0012c01019a008c1306300118007800a5480a0000000000a9a9a905050046147f000000000000004002a000005a41663c504b02f2,
  0x2110000000220001a0800000080000000078000000000000024973e0012c01019a008c1306300118007800a5480a0000000000a9a9a905050046147f000000000000004002a000005a41663c504b02f3,
  0x2110000000220001a0800000080000000078000000000000024973e0012c01019a008c1306300118007800a5480a0000000000a9a9a905050046147f000000000000004002a000005a41663c504b02f4,
  0x2110000000220001a0800000080000000078000000000000024973e0012c01019a008c1306300118007800a5480a0000000000a9a9a905050046147f000000000000004002a000005a41663c504b02f5,
  0x6cf0000042420000a40100007010000000a0000000000000000c2af011281199bb01b49bce2c01e400a0011608020000000000b6b6b60b0b0523147f0000000000000300032d110d87a56441554402f6,
  0x22080000604200014220000030100000008c000000000000028a32c021a801899a00c59bc2200267008c01130202000000000068686805010346147f0000000000000300032d0f0c6ea52d695f5a02f7,
  0x22020000040f0000000200000040000000c80000000900000298a2e0242800119a088639c730061300f00119030200000000002f2f2f07010346141f0000000000000600032d030b787a507b645002f8,
  0x2200000030920001400000003000000000aa00000012000002ba22c2a409168f9ee4ce354633045100aa011d00030000000000b5b5b50e010346141f0000000000000300032d0f095582646f824e02f9,
  0x2200000030920001400000003000000000aa00000012000002ba22c2a409168f9ee4ce35463303ed00aa011d000300000000004646460e010346141f0000000000000300032d0209739f644e684e02fa,
  0x6ce00000e82200012c1900007210000000c8000000000000068a2af8b1685598cbf5f7bbfeec04f600e6015f060300000000005050500f0f050078ff00000000000003000303010d649a8264be6a02fb,
  0x6ce00000e82200012c1900007210000000c8000000000000068a2af8b1685598cbf5f7bbfeec014a0096015f060300000000000f0f0f0f0f050078ff000000000000030003030d0d78c28c46966a02fc,
  0x2010000020360000018000003308000000be000000120000029a22c8a449348bdee4ce3146b1020800be011c0002000000000003030305050346141f000000000000000c032d010950826450a05002fd,
  0x243000002a22000020110000721000000082000000000000028a22f8902c0098da41f413c6ac013b008200b30002000000003c4a4a4a08080046147f0000000000000080025a0d0155506455643c02fe,
  0x28040000003200019008000008040000008c000000000000028962d0000e5402bf2ca4314e3001ef00be00d20402000000005a5e5e5e05050523147f0000000000000200022d09105a8c735a5a4b02ff,
  0x33040000e00200015d6600007a20000000d200000000000002db26c2a15b04889af4cff37e330f6e00dc011c070200000000006f6f6f01010523237f000000ee00000030032d0808503c32e68c460300,
  0x68640000422600001409000000000000006e000000000000000d2ad4112b5180bb00b5934e280082007800c20402000000005a9e9e9e0b0b0423197f000000f700000008022d0707535d4b4ba5400301,
  0x32040000e0020001594e00007a20000000c800000000000002db62c2a15f04889bf4cfd37e3309f600fa013b030200000000002d2d2d01010523287f000000000000000c032d1005785f4796a4640302,
  0x2000000010860000014000000021000000b4000000000000029827c10c0820a4ba90c41fc72004e200c800d20002000000000065656503030046197f00000000000000080219080664414b8c96460303,
  0x300000002007000001400000000100000096000000000000029822c1ac4800a8ba40ce5346a0024e00aa00d205020000000000b8b8b803030546197f0000000000000008022d02065a4169789b410304,
  0x3000000011920001480400000020000000b400000000000002a822c0a05a0604bbf486574e33031600d200d706020000000000b5b5b504040546231f0000000000000080022d02055f46965587500305,
  0x20100000a822000170600000520800000078000000000000028b26c8a44f0088da40fe1346b9023f008200db010200000000005b5b5b08050346191f0000000000000104022d0801468c705891460306,
  0x22020000a42a0001040200004040000000dc000000000000028822e0e42800989a40e63bf260073a010e00d00802000000000075757507010546147f000000f600000104023c0e0b69841e69845a0307,
  0x200c000040020000006200000020000200aa000000000000021826c0860d00209a81e4134620021200aa00ea0502000000003cb0b0b00a0a0046147f0000000000000108032d070832963c32963c0308,
  0x22000000a00200016c4000004010000000a000000024000007cb26c2a20800c89a40ce53727003f300a0011c01020000000000b2b2b202010346141f0000000000000c00032d0a0a73874e78674f0309,
  0x23140000e80200010c0000007a020002009d00000000000002da22c0a00d0488baf4efbb767003e800dc00cf05020000000096b9b9b90101004614fe0000000000000002022d0000643c64647d69030a,
  0x22040000800200015c00000009200002012300000000000007c922c2214a04409b3487937a700bea028a00e00102000000003c6868680e0c0546057f0000000000000008022d100a8246516d9b5f030b,
  0x28040000c02600013509000001000001006f000000000000029962d1956f1521bbf4a5937e6901ea007800c6480200000000009c9c9c05050323197f0000010e00000008021e10103c73733c9641030c,
  0x6ce00000682600012019000070100001007e000000000000000c2af011284198bb01b41bce2c01e00078010a0502000000000024242408080346143f000000f80000030003320d0d5faf96413237030d,
  0x20100000200600000040000002010001007e000000000000029822c0ac4d00a8bac0ce5347a0027100aa00d2010200000000005c5c5c03030546197f0000000000000008022d010669284b73b950030e,
  0x380000002206000014e8000050240000004b000000000000028b26e0944a45a89b7ce4335e2000eb006400a80402000000000025252506050446147f0000000000000014022d11085f37327d6932030f,
  0x20000000400200010020000008100001007e000000000000008872c001a80102ba048593c23001b800b400c90202000000005a16161605050546147f0000000000000080022d0c0c508787504b460310,
  0x32000000000200014804000000280002009000000040000002d822caa44904a09af4ce13463303b600be013b010200000000009f9f9f0e010546287f000000000000000c032d040f5f785c73aa6c0311,
  0x22b00000d082000064810000000000020094000000400000057822f0312d01149a91b7bfd63f02bc00e6013b010200000000001a1a1a0f0f055a7800000000000000030003030d0f78a06e6482500312,
  0x22700000d0a2000064810000000200010079000000400000057822f0312d01149a91b7bfd63f020800b4013b000200000000001a1a1a0f0f055a78fe0000000000000c0003030d0f968c6e7864500313,
  0x6026000006280000100900000040000200140000000000000209aaf082209510be2cb43986200023001e00430504000000005a0f77350b0b0046147f000000000000001001780b07372c3846422c0314,
  0x6026000006280000100900000040000200140000000000000209aaf082209510be2cb4398620004b003200430504000000005a0f77350b0b0046147f000000000000001001780b07372c2e4642360315,
  0x6026000006280000100900000040000200140000000000000209aaf082209510be2cb43986200096005000430504000000005a0f77350b0b0046147f000000ef00ef001001780b07372c2946423b0316,
  0x60260000062800001009000000400002005a0000000000000209aaf082289518be2cb439c620005f004600ad0504000000005a0f77350b0b0046147f0000000000000020023c0b074b3a637a55370317,
  0x60260000062800001009000000400002005a0000000000000209aaf082289518be2cb439c620008c006e00ad0504000000005a0f77350b0b0046147f0000000000000020023c0b074b3a457a5f4b0318,
  0x60260000062800001009000000400002005a0000000000000209aaf082289518be2cb439c620018600aa00ad0504000000005a0f77350b0b0046147f000000ef00ef0020023c0b074b3a367a64550319,
  0x211a0000044a000000010000004200020050000000000000000ca2e0002000119a00943b06280009001400820806000000005ab4a6a60606004614fe000000000000080002781111624b342f2d36031a,
  0x211a0000044a000000010000004200020050000000000000000ca2e0002000119a00943b06280009001400820806000000005ab4a6a60606004614fe000000000000080002781111624b342f2d36031b,
  0x211a0000044a000000010000004200020050000000000000000ca2e0002000119a00943b06280009001400820806000000005ab4a6a60606004614fe000000000000080002781111624b342f2d36031c,
  0x211a0000044a000000010000004200020050000000000000000ca2e0002000119a00943b06280009001400820806000000005ab4a6a60606004614fe000000000000080002781111624b342f2d36031d,
  0x211a0000044a000000010000004200020050000000000000000ca2e0002000119a00943b06280009001400f30806000000005ab4a6a60f0f004614fe000000000000080002781111807d5c43414a031e,
  0x33000000a00200010d0400004a000001007e00000024000007ca22c0a04800c99a42ce13727003fc00be011e0102000000000021212102010346141f000000000000000c032d040a6e5f466e9664031f],
  [0x230200002c0a000140000000124800010087000000090000029aa2e1a42820b8dac0ce394633022800be011c030200000000001f1f1f0e010346141f00000000000000c0032d0f0b5591914b6e460320,
  0x28a40000e226000034190000721000000043000000000000021f62d810275c80fbc0fc130e29064a003200a8060200000000009c9c9c08080323197f0000000000000014022d07107355147d55320321,
  0x2280000011d20001c000000008000001006a000000400000022c22d030080405baa4863f563300ce009600cf01020000000000b6b6b60e040146147f0000000000000800022d110f696e506e6e4b0322,
  0x6cf000006a060000a0010000721800010083000000000000029e2af9b56c11a9fbc1f69bceac023400a00116080200000000002727270b0b05231400000000000000000c032d010d73416e5fa5440323,
  0x681800002a660001a49100007a120001006a000000000000004e3af0112405819a25bdbbf62c0140009601a90902000000000083838306060446147f0000009e009b000202ff11007e50327e3c670324,
  0x20040000800200003400000009040002008c00000000000007c962c8200e0040bb4086137a70051700fa00c401020000000000adadad0c0c0523147f000000e200000008023c100a416e69468c460325,
  0x64a80000a80200012c4b000040100001008300000000000006c82af0312804c99aa4fe1bf66c04b000c800cf0902000000003c4b4b4b02010046147f000000dd00000020024b0d0a50821eb44b5f0326,
  0x3000000000030001582600000020000201620000000000000299a6c2b25a80009b508e514e301ce8041a00d6070200000000009f9f9f0a0a0046197f000000e900000020021904085f371ee67d4b0327,
  0x20000000119200000000000008000001007e000000000000002823c000080004ba808417462001f900dc010505020000000000636363040403460f7f00000000000000c0032d02005087795050530328,
  0x20040000800200001402000000340001007e000000000000000922c0622a80009b00a61bfa600dae00d200cb07020000000000aeaeae0a060046147f0000000000000002024b0e0e5078645078500329,
  0x719800000042000000f40000000200000032000000000000000caac0927880008a519459c66c0116006e013b090200000000509c9c9c0f0f054619ff0000000000000810030311056ea06e6ea032032a,
  0x302000000002000024720000503000010083000000000000029a26e0b23880008ad9f613c62524d500fa013b01020000000000b5b5b50a0a052328ff000000e90000003003030d086e696e969150032b,
  0x20000000c00200000c02000008300002003800000000000007c822c0b10800408a40c79b727810cc03d4015b01020000000000bdbdbd0f0f050078ff000000000000030003030a0aa0b45a5a9664032c,
  0x300000004002000140060000382000020038000000000000029a22c2b559048a8af4cff946b3270d01f4015b00020000000000bebebe0f0f050078ff000000000000000c030309045a965aa0b464032d,
  0x22000000c0830001cc04000008200002012f000000c0000007e822c2b749069b8af4c7b376b30f500438015f03020000000000bfbfbf0f0f050078ff0000000000000108032d020f64b47364b469032e,
  0x20100000600600010220000010120000003b000000000000028832e001a001819a00cd938220003c00280070420700000000001f09090f0f00460a7f000000ec0000008002be0c0c32325a283723032f,
  0x20100000600600010220000010120000003b000000000000028832e001a001819a00cd938220003c00280070420700000000001f09090f0f00460a7f000000ec0000008002be0c0c32325a2837230330,
  0x20100000600600010220000010120000003b000000000000028832e001a001819a00cd938220003c00280070420700000000001f09090f0f00460a7f000000ec0000008002be0c0c32325a2837230331,
  0x20100000600600010220000010120000003b000000000000028832e001a001819a00cd938220003c00280070420700000000001f09090f0f00460a7f000000ec0000008002be0c0c32325a2837230332,
  0x20100000600600010220000010120000003b000000000000028832e001a001819a00cd938220003c00280070420700000000001f09090f0f00460a7f000000ec0000008002be0c0c32325a2837230333,
  0x20100000600600010220000010120000003b000000000000028832e001a001819a00cd938220003c00280070420700000000001f09090f0f00460a7f000000ec0000008002be0c0c32325a2837230334,
  0x6ce0000068260000209b00007c1a0000003c000000000000000b2af011284998ab01f49bce2c1324028a013206020000000000aaaaaa0f0f056478ff00000000000003000303100d82aa503ca0500335,
  0x3008000000120000000400000020000200900000000000000288a6c0a05894039e748e3146300c8500fa00c4000200000000007d7d7d05050046147f0000000000000104029604096991146478460336,
  0x21180000e8420001808100007b020001006f000000000000029a22e0010c0188da00adb37620011b008200cb050200000000007171710805008c147f0000000000000080023c01006036875e88410337,
  0x2200000010920001e800000000000001007e00000040000002b822c2a04904049ae4c6174633046600b4013b01020000000000b8b8b80e0e0523287f000000fa0000000c032d020f5a787882915f0338,
  0x210000001486000002000000008100010064000000000000021823cd0c2a2020ba88c43547200195008c00df020200000000005b5b5b030300460f7f000000f500000408032d0306500f912896410339]]

end Verif.Data
