/-
Generated by tools/gen_personal.py from resources/bin/personal.
-/
namespace Verif.Data

/-- resources/bin/personal/personal_bw, 668 pieces of 60 bytes -/
def personal_bw : List Nat := List.flatten [
  [0xff000000000000000000000000000000000000000000000000,
  0x100000004a260042000119a08843987200045000700400301000000000022414107010346141f0000000000000100012d030b41412d31312d0001,
  0x100000004a260042000119a08843987200082000a008e0301000000000022414107010346141f0000000000000500022d030b50503c3f3e3c0002,
  0x900000004a260242800119a088639c73003e8001400ec0301000000000022414107010346141f0000000000000600032d030b6464505352500003,
  0x200000004a240840114839ee4cc11062300550006003e000100000000005e42420e010346141f0000000000000040012d0909323c412b34270004,
  0x200000004a240840114839ee4cc11062300be000b008e000100000000005e42420e010346141f0000000000000140022d09094150503a403a0005,
  0x1200000005a242a409168b9ee4ce3146330389001100f0000100000000005e42420e010346141f0000000000000300032d0209556d644e544e0006,
  0x40000001e2240020000c09a40cc133260005a0005003f010100000000002c434302010346141f0000000000000010012d0a0a40322b41302c0007,
  0x40000001e2240020000c09a40cc13326000e1000a008e010100000000002c434302010346141f0000000000000410022d0a0a50413a503f3b0008,
  0x240000001e2642a20800c89a40ce5372700357001000ef010100000000002c434302010346141f0000000000000c00032d0a0a69554e64534f0009,
  0x1d0003002703010000000000321313030300460f7f000000000000000101ff060614142d231e2d000a,
  0x6300070048030100000000003d3d3d030300460f7f00000000000000200278060619191e371432000b,
  0x35018282010ba80b43b47200140000b00ad080100000000006e0e0e030300460f7f000000de00000600032d0206505046322d3c000c,
  0x200003002705010000000000321313030300460f7f000000000000004001ff03061414321e2328000d,
  0x6400060048020100000000003d3d3d030300460f7f00000000000000200278030619192332192d000e,
  0xa3490c2a2020ba88c43147200127000a00ad02010000000000614444030300460f7f000000f500000408032d0306502d4b285041000f,
  0x103c400000000ba80841306200012000300320501000000005a914d33040403460f7f000000000000004001ff0200232338282d280010,
  0x103c400000000ba8084130620012c000b007a05010000000000914d33040403460f7f000000000000008002780200323247373c3f0011,
  0x103c400080000ba8084134620018b000f00d305010000000000914d33040403460f7f00000000000000c0032d020046465b4b50530012,
  0xb3e401040100ba00ad933e2000230003003306010000000078373e32050500460f7f000000c80000004001ff000023194823381e0013,
  0x4b3e4050c0100ba00ad937e3000b9000700910501000000005a373e32050500460f7f000000c800000080027f00004632613c51370014,
  0x103c400000021ba80841306200014000300340501000000005a613333040400460f7f000000000000004001ff02001f1f461e3c280015,
  0x103c400080021ba8084134620017c000c009b0501000000003c613333040400460f7f000000f400000080025a02003d3d64415a410016,
  0x40248a0020000bb4a8e13072000450014003a060100000000787f3d160e050046147f000000000000000401ff03033628372c3c230017,
  0x4024aa00a0000bb4a8e134720028a002300990601000000003c7f3d160e050046147f0000000000000008025a03034f415045553c0018,
  0x4326001a001819a00cd938220003c00040069020100000000001f0909060500460a7f00ec0000009b008002be0c0c28325a1e37230019,
  0x4326001a80189ba00cd93c220012c000800d6020100000000001f0909060500460a7f00000000009b00c0034b0c0c505a64375a3c001a,
  0x4a249a6010080bad0ce19062100780006003c0201000000005a92080805050046147f000000d90000001001ff04041e1428554b32001b,
  0x4a249a6490088bad0ce1946210127000a009e0201000000003c92080805050046147f000000d900000020025a0404372d416e644b001c,
  0x4a24800010000ba888d9337210046000400370101000000005a374f260501034614fe000000000000000101eb0303282829342f37001d,
  0x4a24800010001ba888d93372100c8000800800101000000003c374f260f0f034614fe000000000000000202780303373738433e46001e,
  0x6a24aa0490c89bbfeefd37f310258000d00df010100000000007d4f260f0f034614fe0000000000000003032d0403554b4c57525a001f,
  0x4a24800010001ba088d933721005a000500370601000000005a374f26050103461400000000000000000401eb030328283228392e0020,
  0x4a24800010001ba088d93372100c3000900800601000000003c374f2605010346140000000000000000080278030337374139483d0021,
  0x6a24aa0490c89bb7eefd37f31026c000e00df060100000000007d4f26050103461400000000000000000c032d04034b55554d5c510022,
  0x42274112405819a25fdbfb62c004b00060071090100000000788462380606048c0abf02470051009a000202960000413c23302d460023,
  0x42274112c05899a25fdbff62c0190000d00d5090100000000006d62380606048c0abf02470051009a0003031900005a553c49465f0024,
  0x240100214129e248c19063000630006003c050100000000004612120505004614bf000000980098004001be09094132412829260025,
  0x250100a14129e248c39463c00c7000b00b1020100000000004612120505004614bf0000009800980440024b09096451644b4c490026,
  0x41274132405819a25fdbbb62000370005005f09010000000078843838060604460abf000000000000000202aa0000192d14142d730027,
  0x41274132c05899a25fdbbf6200078000a00bf09010000000000773838060604460abf000000000000000303320000324b2d2d468c0028,
  0x103c000022000bb88a4130f20004b000800310601000000005a972727040400460f7f000000000000004001ff0203281e37232d280029,
  0x103c0000a2000bb88a4134f2002260010009f0601000000003c972727040400460f7f0000000000000080025a02034b415a46504b002a,
  0x8260042000109a08843107200036000500400101000000005a32222207070346147f000000000000010001ff030b414b1e37322d002b,
  0x8260042000909a088431072000560008008a0101000000003c01222207070346147f00000000000002000278030b4b552846413c002c,
  0x8260042800909a088431472000ba000c00d8000100000000001b222207070346147f0000000000000300032d030b5a643255504b002d,
  0xa2610c200030ba88cc3187210036000300390001000000007806571b07030046147f024400570056000401be0b06372d19374623002e,
  0xa2610c280030ba88cc31c7210127000a008e0001000000005a06571b07030046147f0244005700560018024b0b06503c1e505f3c002f,
  0x24008200000ba0894310720012c000a003d06010000000000326e0e03030046147f000000000000040001be030637282d32373c0030,
  0x34008282010ba8894314720007d000f009e06010000000000936e1303030046147f0000012700000140024b03064b5a5a3c41460031,
  0xa240a0010001bad88e110621000800020035050100000000789f470805050046147f000000ed0000104001ff04042d235f19370a0032,
  0xa240a0490001bada8e114621014d0007008e050100000000009f470805050046147f000000ed00001080023204044632783250230033,
  0x835410270001bb80ad930e21002a0004003a020100000000007f653505050046147f000000d90000004001ff000028285a232d280034,
  0x8354102f4001bb80ad934e310140000a009a020100000000007f650705050046147f000000d900000080025a00004141733c46410035,
  0x1e2240102100c09a80dc17b26d00c4000800400201000000005a210d0605020046147f000000000000010001be0a0a3241373034320036,
  0x1e2240102900c8da80dc17f26d02fe001100af0101000000003c210d0605020046147f0000000000000200024b0a0a505f554e52500037,
  0x4234ca006208afac0cfd30ea101180005003d0501000000000080534805050046147f000000c10000000401be01012d23462350280038,
  0x4234ca04e208afac0cfd34ea10140000a009f0501000000000080534805050046147f000000c100000008024b0101463c5f3c69410039,
  0x4724000041402bea48c19063000be00070046050100000000009a121605050546143f000000980098000401be090932463c2d4637003a,
  0x47240200c1402bea48c394630060e001300c2050100000000009a121605050546143f0000009800980008024b090950645f506e5a003b,
  0x1a024000000040ba009c133260007c0006003c4101000000005a21060b02020346147f000000000000004001ff0a0a28285a283228003c,
  0x1e2240200000c0ba00de13326000c8000a00874101000000003c21060b02020346147f000000dd0000008002780a0a32325a414141003d,
  0x1e224ca00a00c8fa40de1372e0021c000d00e14101000000000021060b02020346147f000000dd00000030032d010a5a46465f555a003e,
  0xa7011204194bb01b41f8e2c00c30009003e0501000000007862271c08080346143f000000f80000010001c80d0d37695a0f1419003f,
  0xa7011204194bb01b41f8e2c0235000d008c0501000000000062271c08080346143f000000f80000020002640d0d4678691e23280040,
  0xa701128419cbb01b41fce2c01e0000f00dd0501000000000062271c08080346143f000000f80000030003320d0d5587782d32370041,
  0x4224ca0060488fa64ce5386a000c30008003d0701000000005a50633e08080346143f000000000000000401b401012323233250460042,
  0x4224ca0060488fa64ce5386a002c1000f008e4701000000003c50633e08080346143f0000000000000008025a01013c322d4664500043,
  0x4224ca04e0488fa64ce53c6a00514001000e30701000000000050633e08080346143f000000000000000c032d010155413750825a0044,
  0x826004200010ba098431072000280007003c0301000000005a52222207070346147f000000000000000401ff030b1e4628234b320045,
  0x826004200010ba09843107200040000a00890301000000003c52222207070346147f00000000000000080278030b2d5537325a410046,
  0x826004280010ba0984314720009b001100d80301000000000052222207070346147f000000000000000c032d030b3c64464169500047,
  0x1a824804020040ba0a841b336001c700090043010100000000002c401d09090546147f000000f50000040001be030a6432462328280048,
  0x1a8248040a0040ba0a841b73600226001000b4010100000000002c401d09090546147f000000f500000800023c030a7850644146500049,
  0x42240a25084809a74ce51062000c80004003c0501000000005a0805450a0a03460f7f000000e50000001001ff04051e1e14645028004a,
  0x42240a25084809a74ce510620041a000a00890501000000003c0805450a0a03460f7f000000e500000020027804052d2d23735f37004b,
  0x42240a25884889a74ce5146300bb8000e00da050100000000000805450a0a03460f7f000000e500000030032d040541372d826e50004c,
  0x41240000014039e2484310620012c000a00520201000000007831123205050046147f000000bf0000004001be090941415a375532004d,
  0x41248000814039e248431462003b6001100af0201000000000031123205050046147f000000bf00000080023c0909505069466441004e,
  0x160a70312004419a24be1fb66c0168000c003f0901000000003c90140c02010046147f000001170000000101be0d0a28280f41415a004f,
  0x162a70312804c99aa4fe1ff66c0311001000ac0901000000003c90140c02010046147f000000dd00000020024b0d0a50641e6e4b5f0050,
  0x164013a081008a0185938620003c000300410701000000005a94052a0a0a004614ff000000e90000010001be080c375f2d4623190051,
  0x164013a881008a018593c6200258000a00a30701000000003c94052a0a0a004614ff000000e900000200023c080c4678465f3c320052,
  0x183cc14042020ba808411062000960008007b0501000000007880273305040046147f0000010300000004022d02003e3a3c3741340053,
  0x102c400000001ba80841106200188000e003e0501000000005a4d303204040046147f000000f40000000401be020023234b2d55230054,
  0x102c4000a0001bb8084114e200354001200a10501000000003c4d303204040046147f000000f400000008022d02003c3c64466e3c0055,
  0x1a024000000081ba00841b32600384000b004108010000000000735d2f05020046147f000000000000040001be0a0a462d2d372d410056,
  0x1a024040080081ba00841b726004b0001100a608010000000000735d2f05020046147f0000000000000800024b0e0a5f464650465a0057,
  0x4024880028480bb6ead930f20012c000900410601000000003c8f3c010b0b0046147f0000005c0000000101be03033228193250500058,
  0x42248800a8488bb6eed934f20012c000c00af0601000000003c8f3c010b0b0046147f0000005c00000005024b03036441324b69690059,
  0x120240000280009a008413326000280003003d060100000000008e5c4b09090546147f000000590058001001be0a0a192d2864411e005a,
  0x120248400a80009b0084137260052d000f00b8060100000000008e5c4b09090546147f0000005900580020023c0e0a2d5546b45f32005b,
  0xa501002d010bb08b4970f200001000d003e060100000000781a1a1a0b0b0346147f000000000000010001be03072364501e231e005c,
  0xa581003d090bb08b4970f2000010010008e0601000000005a1a1a1a0b0b0346147f0000000000000200025a030737735f2d322d005d,
  0x42a58100bd098bb08f5974f200195000f00e1060100000000001a1a1a0b0b0346147f0000000000000300032d03074b826e3c413c005e,
  0x42642b25280009b508e510e3008340058004d0701000000003c8505450a0a0046197f0000000000000010012d04052d1e46a02d23005f,
  0xa7011200080fb01f41f8e2c0144000a00420201000000005a276c0f08080046147f000000000000040001be0d0d5a2b2a2d303c0060,
  0xa7011280088fb01f41fce2c02f4001000a90201000000003c276c0f08080046147f0000000000000800024b0d0d7349434649550061,
  0x16a241840000e0ba40cc1332610041000400410001000000005a7d4b3409090046147f000000000000000401e10a0a1919325a691e0062,
  0x16a241840808e0ba40cc1372610258000d00a64001000000003c7d4b3409090046147f0000000000000008023c0a0a32324b7382370063],
  [0x124003a08100ab0085938a20006800050042000100000000786a092b0a0a004614ff000000000000004001be0c0c373764321e280064,
  0x124003a88100ab008593ca20029a000c00a8000100000000006a092b0a0a004614ff0000000000000080023c0c0c50508c46323c0065,
  0x40a7014208010ba0994358620001900040041090100000000788b222207070546147f0000000000000010015a0d0b2d3c2850283c0066,
  0x40a7014288010ba099435c62404b0001400b6020100000000008b222207070546147f0000000000000200022d0d0b417d37555f5f0067,
  0x42240a40404a1baf4ce5136200041000400400501000000005a041f4501010046147f000001020000001001be04043228235f32320068,
  0x42240a44c04a9baf4ce51762001c2000a00950501000000003c041f4501010046147f0000010200000020024b040450322d6e503c0069,
  0x4224ca0440088fa40c61306a001f2000f009f050100000000005478070808004619000000000000000008022d01016e2357357832006a,
  0x42244a0440088fa40c61306a001f6000e009f050100000000002759330808004619000000000000000800022d01016e234c4f6932006b,
  0x6a256b40c0480ba74efb37620028f000c004d0901000000003c0d0c1401010046147f0000011700000002012d00004b3c1e4b375a006c,
  0x24002229400bb2ca5930f20000a000600440601000000005a1a1a1a0b0b0046147f000000e40000001001be03032d3c235f4128006d,
  0x240022a9400bb2ca5934f20005f000c00ac0601000000003c1a1a1a0b0b0046147f000000e400000020023c030346553c785a41006e,
  0x42248a4520400ba748f933630047e000a00450701000000005a78451f05010546147f0000000000000010017805041e1e195f5550006f,
  0x6a24aa45b0488ba74cfd3763004b0001300aa0701000000003c78451f05010546147f0000000000000008023c05042d2d287882690070,
  0x43274b12c05819a74f7bbf668015a000b018b0901000000005a83201e0606048c28fe000000e701000002021e00006923320505fa0071,
  0xa26014280010ba0984314620015e000a00570101000000005a90662207070046147f0000000000000010012d0b0b28643c7337410072,
  0x6a244a00d0488baf4efbb76700320001600ac050100000000962771300101004614fe0000000000000002022d000050285a505f690073,
  0x1a0640000000409a008413326000500004003b010100000000000661210e020046147f000000eb0000010001e10a0a19463c46281e0074,
  0x1a0640000800409a008413726000fa000c009a010100000000000661260e020046147f000000eb00000110024b0a0a2d5f555f41370075,
  0x1a0248000000409a00841332600096000600400001000000005a1f29210c0c0046147f000000000000000401e10a0a32233f3c432d0076,
  0x1a0248000800409a00841372600186000d009e0001000000003c1f29210c0c0046147f0000000000000008023c0a0a504144415c500077,
  0x1a0640132000408a019593b26001590008004445010000000000941e230909054614ff0000005b005a004001e10a0a374655372d1e0078,
  0x1a0e70132800408a019597f2640320000b00b606010000000000941e230909054614ff0000005b005a0080023c0d0a556473554b3c0079,
  0xa70112a0198bb81f5bfce2c0221000d00a10901000000005a656f2b08080046197f0000009a00000800022d0d0d78645a412d28007a,
  0xa3410c080020ba80c41bc6200230000f00640301000000000050654403030046197f0000000000000004012d0206503769506e46007b,
  0xa70502a0099bb01f417fa6c0196000e009f00010000000000576c0c0808004619fe0000009900990200022d0d0e5f735f233241007c,
  0x4324001a80188fa00d593c220012c000b00ac4201000000007848090908080046193f0000000000000080022d0c0c555f69395341007d,
  0x422400008148afe24d411462001bd000d00ad0001000000005a48313108080046193f0000000000000200022d090955645d395f41007e,
  0x4a241ac4800a8ba40ce5346a00226000f00af0501000000000099683403030546197f0000000000000008022d0606463755647d41007f,
  0x63244a04e04009a7487b376200374000e00ac0501000000005a7d53160505054614000000000000000044022d000046286e5f644b0080,
  0x64000900280001000000005a9b21210e0c0546057f000000000000004001ff0a0a140f50370a140081,
  0x1e2242214a04409b3487937a70092e004100bd0101000000003c9916160e0c0546057f0000000000000008022d020a643c514f7d5f0082,
  0x1e2250600800019a00959b72700898001900bb0101000000003c5d4b0b02010546287f0000000000000002022d0e0a5f553c5055820083,
  0x28000300650601000000005a9607070d0d004614ff0000010101120001022300003030303030300084,
  0x244000400019a00ac130620004100030041050100000000006b5b3205050046231f0000000000000400012d0000412d373237370085,
  0x1e2244000c00419a00ac1376700122000a00b8010100000000005d0b0b05050046231f0000000000000002022d0a0a5f6e413c41820086,
  0x4324401ac01019a00ad93c63000f5000800b8020100000000005f0a0a05050046231f0000000000000080022d0c0c5f6e823c41410087,
  0x42244000c14039e24ac13463000fa000900b8000100000000003e121205050046231f0000000000000008022d09096e5f413c82410088,
  0xa5011280100aa80b5b37624016d0008004f090100000000009458240a0a004614ff0000000000000100012d00004b5528463c410089,
  0x1a224082100040ba5084533260004b0004004701010000000000854b21090200461e1f0000000000000010012d0a05375a23642823008a,
  0x1a224082580040ba5084537260015e000a00ad01010000000000854b21090200461e1f0000000000000020022d0a054673377d3c46008b,
  0xa224080100040ba508c53326100730005004705010000000000850421090200461e1f0000000000000010012d0a052d37375a501e008c,
  0x1aa24184580040bad0cc5372610195000d00ad05010000000000850421090200461e1f0000000000000008022d0a0546415069733c008d,
  0x52240a05a0600bbf486534e33024e001200b4060100000000007f2e4504040546231f0000000000000080022d02054b3c82416950008e,
  0x63244a00c04889a74f7f3762011f8001500bd04010000000000522f1101010546281f000000ea00ea0002021900006e411e416ea0008f,
  0x123c0400802008a9184137670022a0011010501010000000000512e2e0f0f052350ff0000000000000c000303020e7d5f5564555a0090,
  0x133c001a803008a908593c630020e00100105020100000000001f2e2e0f0f052350ff00000000000003000303020c5a7d64555a5a0091,
  0x123c0000816028eb4843b463002580014010502010000000000312e2e0f0f052350ff000000000000030003030209557d5a5a645a0092,
  0x400000000a0242010004009a24859bf66000210012003c010100000000783f3d3d0e020523287f000000eb00000004012d0f0f3232322d40290093,
  0x400000000a0242010004009a24859bf66000a5002800930101000000005a3f3d3d0e020523287f000000eb00000008022d0f0f46464641543d0094,
  0x400000001fa242a14806889af4c79bf67308340016010e050100000000008827270e020523287f000000eb0000000c032d020f6464505f865b0095,
  0x42a78b1685598cbf5f7bffeec04c400140132060100000000007f2e2e0f0f050078ff000000000000030003030d0d5a9a825a6e6a0096,
  0x1fffffffffffffffffffffffff00280004010e090100000000001c1c1c0f0f036478ff0000009d009d0003032d0d0d6464646464640097,
  0x1000000008260042000119a01843986200040000900400301000000000066414107010346141f0000000000000400012d0b0b41312d41312d0098,
  0x100000004a260042000119a0184398620009e000c008e0301000000000066414107010346141f0000000000000410022d0b0b503f3c503e3c0099,
  0x900000004a262242800119a018639c62003ed001200ec0301000000000066414107010346141f0000000000000810032d0b0b645350645250009a,
  0x2000000009240000014029ea48c110620004f0005003e0201000000000012424205050346141f0000000000000040012d0909323c412b3427009b,
  0x200000004b240000014029ea4cc11063000be0009008e0201000000000012424205050346141f0000000000000140022d09094150503a403a009c,
  0x1200000004b240a209148a9ee4ce314630031b001100f00201000000000012424205050346141f0000000000000300032d0909556d644e544e009d,
  0x40000001a8240840100c09ac0cc133263005f0006003f010100000000007d434302010346141f0000000000000004012d0a0a302c2b404132009e,
  0x40000001ea240840100c09ac0cc13327300fa000b008e410100000000007d434302010346141f0000000000000014022d0a0a3f3b3a505041009f,
  0x240000001ea242a40900c89ac0ce1372730378001700ef010100000000007d434302010346141f0000000000000018032d0a0a534f4e64695500a0,
  0x2836400050181ba04ecb31621003c0008002b05010000000078773332050500460f7f0000009b0000000401ff00002d2314222e2300a1,
  0x6a364000d0189ba04edb376210145001200910501000000005a773332050500460f7f0000009e009b0080025a0000372d5a404c5500a2,
  0x102d410000001ba81b413062000d4000700340501000000005a6e330f040400460f7f000000000000000101ff02003824321e1e3c00a3,
  0x102d410080001ba81b413462001980010009b0501000000003c6e330f040400460f7f0000000000000002025a0200604c4632326400a4,
  0x3400c202080ba81cc398620006c000a0035000100000000009b3044030304460f7f000000000000040001ff02065028371e142800a5,
  0x423400c282088ba81cc39c6200164000e008900010000000000593044030304460f7f0000000000000800025a02066e375532233700a6,
  0x24808200000ba089c31072100550005003203010000000000610f44030304460f7f000000000000000401ff030628281e283c2800a7,
  0x24808280000ba089c314721014f000b008900010000000000610f44030304460f7f0000000000000008025a03063c3c28465a4600a8,
  0x103c1000a2000bb88a4134f2002ee001200f106010000000000972727040400460f7f00000000000000c0035a0203504682505a5500a9,
  0x1a124001a001409a0085933260007800050042010100000000000b230a0c0c0546147f000000e30000000101be0c0a38384326264b00aa,
  0x1a124001a801409a008593726000e1000c00a1010100000000000b230a0c0c0546147f000000e300000002024b0c0a4c4c433a3a7d00ab,
  0x126001a001819a0085938220001400030029020100000000001f09090f0f00460a7f00000000009b004001be0c0c23233c0f281400ac,
  0x274112004819a25bc3f8624001e0003002c090100000000008462380f0f048c0abf02470051009a040001960000372d0f1c193200ad,
  0x1274112004819a25bc3b8620000a0003002a490100000000008438380f0f04460abf000000000000000101aa000014280f0f1e5a00ae,
  0x2274112004819a25b43f8624000f00030031080100000000006920370f0f04460a1f000000000000040001be000041281441142300af,
  0x12274112c04819aa5f43fc62400200006008e08010000000000692037060404460a1f0000000000000800024b020069502855283700b0,
  0xbf011200004ba81b437862c001400020040030100000000009c301c04040046147f000000000000010001be020d2d46462d322800b1,
  0x10bf011280004ba81b437c62c0096000f00a5030100000000009c301c04040046147f0000000000000140024b020d465f5f464b4100b2,
  0x1240012001019a00859b8220004e000600380801000000003c39090905010346147f000000000000010001eb0c0c2d412328283700b3,
  0x4324001a001819a00c59b82200085000800800901000000000039090905010346147f000000000000020002780c0c3c502d37374600b4,
  0x4324021a801899a00c59bc2200267000e00e10201000000000039090905010346147f0000000000000300032d0c0c5a73374b4b5a00b5,
  0x8260042800909a0884394720003a000400d80301000000000083222207070346147f0000000000000c00032d0b0b645a3255504b00b6,
  0x1e2264000000c09a00cc13b2600055000400580101000000003c9d252f060204460a7f000000000000000202be0a0a32142832144600b7,
  0x1e2264200800c89a00cc13f260011d000800b9010100000000009d252f060204460a7f0000000000000003034b0a0a50323250326400b8,
  0x42240b0508080bb50ce510e28017c000c0090050100000000009b45050a0a0046147f000000000000002002410505411e1e73644600b9,
  0x1e2240200a00c9ba00de1372600153000b00e14301000000000002060b02020346147f000000dd00000c00032d0a0a645a464b4b5a00ba,
  0x360142020109a81843106200005000400320901000000005a97662207060346147f000000000000040001ff020b37233228232300bb,
  0x360142020109a8184310620000a000600770301000000005a97662207060346147f00000000000000800278020b412d50322d3700bc,
  0x360142820109a8184314620001e000800cb0101000000007897662207060346147f00000000000000c0032d020b55376e46374b00bd,
  0x4a37401072080fa80edb30e21007300080048060100000000005c353205050446147f0000000000000040012d000037285537463700be,
  0x8260042000109a08843986200012000300240201000000005a305e2207070346147f000000c00000010001eb0b0b1e1e1e1e1e1e00bf,
  0x8260042800109a088439c62000550008009502010000000000305e2207070346147f000000000000020002780b0b55691e374b4b00c0,
  0x35000200000ba80b4310620017c000c004e00010000000078770e0303030046147f0000010900000040014b02062d4b5f2d414100c1,
  0x1a2240202000409a1a8e1b326000550004002a010100000000786d0b0605020046147f000000000000000101ff040a19190f2d2d3700c2,
  0x1e2240a06800c8ba5ace1b726002ee000e00970101000000003c6d0b0605020046147f0000000000000002025a040a41412355555f00c3,
  0x8a74102c00019a01bc17c62c0109000900b8060100000000009c1c1c05050046231f0000000000000200022d0d0d5f826e3c414100c4,
  0xc254102e00019b00bc134e20010e000a00b804010000000000271c1c05050023231f0000000000000800022d1010823c416e415f00c5,
  0x142d011064800bb80b4130e28001500050051040100000000789e690f04040323147f0000000000000040011e02102a555b2a553c00c6,
  0x162a7231280cc99a24fe1ff66c031b001400ac0901000000000090140c02010046147f000000dd00000c0002460d0a6e641e504b5f00c7],
  [0xa5011225101bb80b5970e28000a00070057070100000000781a1a1a0b0b0423197f0000000000000400012d07075555553c3c3c00c8,
  0x3200050076441c00000000001a1a1a0f0f004628ff000000000000010402e10d0d30483030483000c9,
  0x11d000d008e0101000000003c8c17170b0b0046147f0000000000000002022d0d0d3a21213a21be00ca,
  0x42a7431240111ba01b797862c019f000f009f0201000000003c9d302705050046147f0000009c00000200023c0d00415a5541504600cb,
  0x42240aa0280009a518e31872000480006003a070100000000008e050503030046147f000000000000001001be060623230f5a413200cc,
  0x42640aa9a80009a518e31c72004ea000c00a3060100000000008e050503030046147f0000000000000020024b08063c3c288c5a4b00cd,
  0x43258b3040500ba64afb33628008c000f0091020100000000009b322005050046147f000000000000000102be000041412d46466400ce,
  0x4a349ac5220a0bbd8ce130f210288000b00560601000000000011083403030346147f0000000000000010013c0204412355694b4100cf,
  0x4a642b25a80009b508e514e300fa0005c00b3070100000000007d05450a0a0046197f000000e9000000200219040841371ec8554b00d0,
  0x4724421060482bb2defb30eb0004e0006003c090100000000009b32160605044614bf000000000000000401be000028281e32503c00d1,
  0x47244a14e048abb6defb34eb001e7000e009e060100000000009b5f160605044614bf0000000000000008024b00003c3c2d4b785a00d2,
  0x1a0248030280409a0aa4133b60002700050056070100000000001621260c0c0046147f000000f500000004012d030a3737554b5f4100d3,
  0x4a7410c0820a0ba90c41bc720049c001200af0001000000000087654403030046197f00000000000000080219080650374164824600d4,
  0x42240aa7000009a5a8e59072000cd000600b10201000000003c7e520503030346147f0000002b002b041002be0506e60a05e60a1400d5,
  0x4a244ac4d00a8bac0ce534720021c000f00af01010000000000993e4403030546197f0000000000000008022d01065f28554b7d5000d6,
  0x6e259140740a0fb81ec133e69011800090056440100000000007c332705050323147f000000d9011e0040013c0e104b2373375f3700d7,
  0x4a244a4070080bbc0ce130eb100580006004245010000000000765f3505050046147f00000000000000040178000032322832503c00d8,
  0x4a244a44f0088bbc0ce534eb104ea001200af050100000000007f5f3e05050046147f0000000000000008023c00004b4b374b825a00d9,
  0x2240800014029e6584118620015e00070032000100000000008531280b0b0046147f000000000000010001be090928461428282800da,
  0x42240a25894029e758671c620022600080090000100000000008531280b0b0046147f0000000000000020024b050950501e78323200db,
  0x42240a00000009a518e13b270004100040032050100000000002f510c05050546147f000000000000000401e1040e1e1e3228323200dc,
  0x42240a04800009a518e13f270022e000b009e050100000000002f510c05050546147f0000000000000005024b040e3c3c3250646400dd,
  0x62240a05080409a51be1bb66800320006008509010000000000901e370902044614bf000000ee00000410023c050a55412355373700de,
  0x1a024001000540ba249453762000780006003c070100000000008d61370c020046147f000000000000010001be0a0a23414123412300df,
  0x1a0640010a0550ba2e94537620011d000900a8000100000000008d61150c020046147f0000000000000104024b0a0a4b692d4b694b00e0,
  0x102c040000080ba80c413326000a000090074000100000000000f374805020446147f0000000000000040022d020e2d414b2d372d00e1,
  0x1a0240a00820409ac0861372600898001500a306010000000000290b2102020546197f00000000000008000219020a8c504646284100e2,
  0x1a6c184220200bbd084110e3001f9001100a30701000000000085053304040546197f0000000000000020021902084628468c504100e3,
  0x625000065402bf2ca4310e30006c00060042040100000000787f123005050523147f0000000000000100017809103250411e3c2d00e4,
  0x46250000e5402bf2ca4314e30015e000e00af0401000000005a7f123005050523147f0000000000000200022d0910506e5f325a4b00e5,
  0x400000001a0640000808409a008413726005f0001200f3010100000000000661210e020046147f000000eb00000504032d0f0a5f5f555f5f4b00e6,
  0x42240a00000019a5086110630014f000500420101000000000008353505050046147f000000b900000001017804042828283c3c5a00e7,
  0x42248a25800019a508611463004b0000b00af0701000000000008050505050046147f000000b900000014023c04043c3c3278785a00e8,
  0xa5011280100aa80b5b376240145000600b4000100000000009458240a0a004614ff0000000000000200022d00005f693c5a505500e9,
  0x1a54312c0110ba01b7b3863c02c8000e00a30501000000003c9d771605050546147f0000000000000004022d00004155553e5f4900ea,
  0x244000c00580801000000003c8d651405050446147f0000000000000040022d00002d144b23143700eb,
  0x42244a0040000fa00c61306a000d20007002a0601000000000048503e0f0f004619000000000000000004014b010123232323232300ec,
  0x42244a2440000fa90ce1306a001e0000e009f050100000000005065160808004619000000000000000800022d01016e23465f5f3200ed,
  0xa7050220081ba01b413b26c003c0004003d090100000000005d6c0c0f0f004619fe0000009900990100012d0d0e4155410f1e2d00ee,
  0x324001a00180ba00d593822000eb00060048420100000000004809090f0f0046193f0000000000000040012d0c0c37415f253f2d00ef,
  0x224000001482be24d411062000d600070049400100000000004831310f0f0046193f0000000000000040012d0909374653254b2d00f0,
  0x62244b30c00899a50e7b3762002f3000c00ac090100000000009d712f0505054614fe0000002100210020022d000046286469505f00f1,
  0x43274b12c05899a74f7bbf66801d4000f02600901000000000083201e0606048c28fe000000e700e70003031e0000874b370a0aff00f2,
  0x4f24031a809008a11ad93c63806f400130105020100000000000a2e2e0f0f052350ff000000000000018003030c0c6473734b555a00f3,
  0x4e24030681c028e35ac33463807bc0015010505010000000000122e2e0f0f052350ff0000000000000009030309094b5a6455737300f4,
  0x1ae240300808408a11ac137678074e00140105010100000000000b2e2e0f0f052350ff000000000000081003030a0a735a55734b6400f5,
  0x6240a05600009b50ce534e2002d00006003c0301000000005a083e3e01010523287f0000000000000004012d0405322d2932403200f6,
  0x6240a05600009b50ce534e2005f0000c0090070100000000003d3d3d01010523287f0000000000000008022d040546413346544600f7,
  0x6e242a15f04889bf4cfd37e3307e40014010e030100000000007f2d2d01010523287f000000000000000c032d1005645f3d6e866400f8,
  0x1f2252312803018a91b79ff67c08700034013208010000000000882e2e0f0f050078ff0000000000000c000303020d9a5a6e825a6a00f9,
  0x522d0312817038eb5b7bbc63807c60026013200010000000000902e2e0f0f050078ff0000002c002c0c00030302099a6e5a5a826a00fa,
  0x8b70152801918a91b43bc62800320006010e030100000000001e1e1e0f0f036478ff0000009d009d0003032d0b0d64646464646400fb,
  0x100000004a260842020909ac0cc39062000320005003e030100000000005441410e010346141f0000000000000040012d0b0b374146232d2800fc,
  0x100000004a261842020b0dac0cc39062000d80009008e030100000000005441410e010346141f0000000000000080022d0b0b41555f2d413200fd,
  0x900000004a261a42820b8dac0ce394633020a001100ef030100000000005441410e010346141f00000000000000c0032d0b0b55697841554600fe,
  0x200000004a240840114039ee48c11062100190004003e0001000000000003424205050346141f0000000000000100012d090932462d283c2d00ff,
  0x200000004a24c8401148bdee4cc1106a100c30009008e0001000000000003424205050346141f0000000000000104022d01093c55373c553c0100,
  0x1200000004a24ca449348bdee4ce3146b10208001300ef0001000000000003424205050346141f000000000000000c032d0109466e504678500101,
  0x40000001e2240800000419a428c133260004c0004003e0101000000000006434302010346141f0000000000000004012d0a0a3232283246320102,
  0x40000001e2240a00000c19a42ce13326001180007008e0101000000000006434302010346141f0000000000000008022d040a463c324655460103,
  0x240000001e2240a04800c99a42ce1372700333000f00f10101000000000006434302010346141f000000000000000c032d040a5a553c5a6e640104,
  0x624000064400bb00ac130e3000880005002c070100000000009b5f32050500460f7f000000970000000401ff10101e1e232337230105,
  0x46240000e4400bb00ac134e300172000a009307010000000000995f16050500460f7f0000009700000008027f10103c3c46465a460106,
  0x2a26401040181ba00ad93362100af00040030050100000000785f5235050500460f7f0000009b0000004001ff0000291e3c291e260107,
  0x6a264010d0181ba00ad9376310145000500930801000000005a5f5235050500460f7f0000009e009b0080025a00003d32643d464e0108,
  0x240003002700010000000000321313030300460f7f000000000000000101ff06061e1414232d2d0109,
  0x6400060048080100000000003d3d3d030300460f7f00000000000000200278060619190f372332010a,
  0x34008282010ba80b4394720011c000a00ad020100000000004f4444030300460f7f0000012700000300032d0206325a4132463c010b,
  0x7300070029060100000000003d3d3d030300460f7f00000000000000200178060619190f372332010c,
  0x34008282010ba88b431c720013c000c0087030100000000000e1313030300460f7f0000012700000c00022d03065a324146323c010d,
  0x2026004200051ba0084333660001a0005002c0301000000005a142c21070203460f7f000000000000040001ff0b0a32281e1e1e28010e,
  0x1e2260042000d1ba00c43336610145000c00770301000000003c142c21070203460f7f000000000000080002780b0a463c3232323c010f,
  0x1e2260042800d9ba00c43376610226000f00d803010000000000142c21070203460f7f0000000000000c00032d0b0a645a464646500110,
  0x2260042480309a00ac31062000280005002c0501000000005a7c3022070503460f7f000000000000001001ff0b0b1e1e1e3228280111,
  0x4e2609426c0b0fb40ec3146200118000a00770501000000003c7c3022070503460f7f00000000000000080278100b283c3c2846460112,
  0x4e261942ec0b8fbc0ec3146200254000d00d8050100000000007c3022070503460f7f000000000000000c032d100b3c5a503c645a0113,
  0x103c400000001ba808413062000170003003601010000000000713e3e040403460f7f000000c30000004001c802001e1e551e37280114,
  0x103c400080001ba808413462000c60007009701010000000000713e3e040403460f7f000000c300000080022d020032327d3c553c0115,
  0x103c000000041ba8084133260005f00060036080100000000002c333304020046147f000000000000004001be020a1e37551e1e280116,
  0x303c0000a02c1ba80841372600118000c0097020100000000002c333304020046147f0000000000000020022d020a46554164323c0117,
  0xa7011201185bb01b49f8e2c004200040028080100000000008c241c0b0b0523147f000000000000010001eb0d0d232d2819191c0118,
  0xa7011201185bb01b49f8e2c00ca00080061080100000000008c241c0b0b0523147f000000000000020002780d0d3741322323260119,
  0xa701128119dbb01b49fce2c01e4001000e9080100000000008c241c0b0b0523147f0000000000000300032d0d0d737d50414144011a,
  0x24018200040ba00a4333620001100050036010100000000782c2121030200460f7f000000000000004001c80a06343241201e28011b,
  0x34018280050ba80a43376200024000800910101000000005a7f1616030200460f7f000000de00000500024b020652503c3e3c46011c,
  0x260042000309a0884390720002d0004003b050100000000785f5a1b070602460f7f000000be0000000101ff0b0b3c28233c283c011d,
  0x4a264846c00b8da48c43947a00188000c00a10301000000005a655a1b070602460f7f000000be00000008025a010b3c3c4650823c011e,
  0x4a244800504809ae4e5b336a100f00008003805010000000000363636050505460f7f000000000000000101ff000023231e3c3c3c011f,
  0x4a244a0050488dae4e7b33eb101d1000e009a0801000000005a484848050505460f7f00000000000000800278000037375a5050500120,
  0x4a244a00d0c88dae4e7f37eb10519001400fc05010000000000363636050505460f7f0000000000000003032d0000415f6464a0960121,
  0x8241082000208a90ac31062100370005003507010000000000320e0e030301460f7f000000000000001001ff04061e1e285a2d1f0122,
  0x83410c280020ba90ac3146210078000800a002010000000000970303030301460f7f0000000000000080027802063232a02d5a3d0123,
  0x825108291020aa90ac354621000c00080053050100000000001919190a0a01460fff0000000000000002022d07061e1e282d5a010124,
  0x244000404819a24a433363000a300060030090100000000009b2b2b05010346147f000000960000000101be000017331c1733400125,
  0x42244a00404839b64e6733e300195000a007e01010000000000712b2b05010346147f0000009600000002027800002b47302b47540126,
  0x62244a00c048b9b64e6737e300348000f00d801010000000000712b2b05010346147f0000009600000003032d00003f5b443f5b680127,
  0x6224ca0040088da40ce5306a00360000a002f020100000000007d3e2f08080246143f000000000000000101b401011e14191e3c480128,
  0x6224ca04e0088da40ce5346a009ea001700a6050100000000007d3e2f08080246143f000000dd0000000202c801013c28323c78900129,
  0xa0244000000409a008413b260001400020026010100000000789d252f0f0f04460abf000000000000000101960000281414281432012a,
  0x42240a1d080009b5087d10e2003ca000a004b0701000000003c9f2a050a0a0046147f000000ee0000001001ff05055a2d1e872d1e012b],
  [0x1274112601019a00adbb3628006e0006003409010000000000936038060504460fbf0000009a0000004001ff00002323322d2d32012c,
  0x43274112e01019a00adbb76280146000b008506010000000000936038060504460fbf0000009a00000041023c0000373746414146012d,
  0xe25810275480fbc0fc170e29006e00050085060100000000009e643308080323197f0000000000000014022d07104141324b4b32012e,
  0x42660944a45a89b7ce4335e20007300060085040100000000007d163406050446147f000000b800000014022d0808373732555532012f,
  0x4a240a01100009ad08e1306310258000400420701000000005a86450501010523237f000000ee0000001001b4050828281e6446320130,
  0x4a240a05100009ad08e13063104b0000900970701000000003c86450501010523237f000000ee00000020025a05083232288c5a3c0131,
  0x6a642a15b04889af4cff37e330e10001500ef0701000000000086450501010523237f000000ee00000030032d05083c3c32b46e460132,
  0x4227c90240088da41f41786ac0070000600380101000000005a8c4a4a08080046147f000000000000004001b40d0137283c37281e0133,
  0x4227c902c0098da41f417c6ac013b000d00900001000000003c8c4a4a08080046147f0000000000000080025a0d014b3c504b3c3c0134,
  0x4524001a00100ba048593823000980006003b030100000000783a1f0905050546147f000000000000004001780c0c284141282d280135,
  0x4524001a80102ba048593c2300192000f00a60201000000005a3a1f0905050546147f0000000000000080022d0c0c3c69693c4b460136,
  0x126001a001819a0085938220002a0004008e0201000000000039393906060046147f000000000000004002c80c0c4b555f28323c0137,
  0x126001a001819a0085938220002a0004008e020100000000003a3a3a06060046147f000000000000004002c80c0c554b5f32283c0138,
  0x34019202180ba80e5b3862000b10007008c0701000000005a9e4423080301460f000000000000000040029606064b2f553749410139,
  0x34019202180ba80e5b3862000b10006008c0601000000005a9e6e0c080302460ffe0000000000000040029606064b4955372f41013a,
  0x8268142000109a08a433072000140003008c4301000000003c66261e07060346147f000000f5000002000296030b5064412d3c32013b,
  0x42250000080009a0aa433172000670004003c03010000000078523c400b0b0246147f000000590000000101e10303352b28352b46013c,
  0x42250200880009a0aa63357200320001100a306010000000000523c400b0b0246147f0000005900000002024b0303534937534964013d,
  0x1a424000060040bb0084133a6000d00008003d0001000000005a0318180c0c0523147f000000e20000000401e1100a144141145a2d013e,
  0x1e6248200e0040bb4086137a700378001200a1010100000000000318180c0c0523147f000000e200000008023c100a285f5f287846013f,
  0x1e2240200000419a4086133270051400140050010100000000002e0c290c050246287f0000000000000001017d0a0a23463c2346820140,
  0x1e2240200800419a40861372700f8c009100af010100000000002e0c290c050246287f0000000000000002023c0a0a2d5a3c2d5aaa0141,
  0x42240a00014039e748e11062000f00007003d0201000000000014560c05050046147f000000980098010001ff04092d4123283c3c0142,
  0x42640a05894039e748e3146300898001300a10001000000000053742805050046147f0000009800980104029604094b69284664460143,
  0x42240a24894029e6c863146200324000500a50501000000003c4b494905050046147f0000000000000020025a09094655148c55460144,
  0xa7011220100bb01b4178e2c0132000700420401000000000052142f05050446147f000000c20000040001ff0d0d50463c23193c0145,
  0xa70312a0198bb01f417ce2c02cb000900a50601000000000052142f05050446147f000000c200000800023c0d0d6e5a50412d500146,
  0x43a5490240080ba40fc1b06280032000b007e4501000000003c7e4d14080504460f7f000000960000010002ff00003c3c3c3c3c3c0147,
  0x42240a80000009a508e31462000960007003a050100000000787d473403030346147f000000ed0000000401ff04042d2d0a2d642d0148,
  0x40000000052340a80000009a508e3146200099000b00770301000000005a1a1a1a03030346147f000000000000004402780f043232463246320149,
  0x40000000052342a84804009af48e3146230334001400ea030100000000001a1a1a03030346147f0000000000000084032d0f04505064506450014a,
  0x8268042200909a10c43107200201000400430301000000005a0b080808070323147f000001200000010001be0b0b285523285532014b,
  0x48268042e40989a10c43147200306000d00a60301000000003c0b080808070323147f0000012000000104023c100b3c73373c7346014c,
  0x102d010000001ba80843b1620000c0004003e010100000000000d1e1e0e040146147f000000000000040001ff02004b28323c282d014d,
  0x400000000122d030080401baa4863b563300ce000b00ac010100000000000d1e1e0e040146147f0000000000000800022d020f6946505a464b014e,
  0x4224d840744a8bae4edb33e310193000d00a04801000000005a89111105050146147f000000d900000008025a00003c3c5a3c7349014f,
  0x4224b20060000ba0e8e130f20020d001b00a04401000000005a973d3d0e050246147f0000000000000104025a03033c64413c64490150,
  0xa70b278e1008a51b65ff22c0690000a009a0201000000003c1a1a1a0a0a044619ff0247005100000200022d0d05555f464137460151,
  0xa70b278f5028a75b67dc62c0604000c009a0001000000003c1a1a1a0a0a044619ff0247005000000008022d0d05413746555f460152,
  0x1a0240200000409a508613326000130004003a070100000000785d6b0c0c0c0046147f000000000000000101be040a292e3c2b30320153,
  0x1e2240a04800409a508613726000ec000900a4010100000000005d6b0c0c0c0046147f0000000000000002024b040a474c3c494e6e0154,
  0xea241840200e09ac8cc133a6100730006003e0001000000005a5b4b34090202460f7f000000000000000401cd0a0a23322341502b0155,
  0x1ee241840e00e09acacc137a610148000b00a4000100000000005b4b34090202460f7f0000000000000008029b100a375a3755783f0156,
  0xa70b23081048a51be7f962c00d70005003c050100000000001a1a1a0a0a004614ff000000000000040001ff0d044628373728280157,
  0x42a70b27881048a51be7fd62c0438000f00af040100000000001a1a1a0a0a004614ff0000000000000800025a0d0478464b69463c0158,
  0x260843000109a588471062000ee000a004706010000000000721515090901461e1f0000012800000400012d0b05573d174d29420159,
  0x42260a47800109a5a86714620025c000f00ad03010000000000721515090901461e1f0000012800000800022d0b056b512b615156015a,
  0xa2418c1000209ad0cc510621007d0007004707010000000000210404090901461e1f0000000000000004012d060532284b325f2d015b,
  0x4a641ac5800209ad0ce51462102aa000f00ad07010000000000210404090901461e1f0000000000000008022d060550462d647d4b015c,
  0x1a0240000000409a008413b260004a00060028050100000000005b21210e020146147f000000000000004001ff0a0a370a50140f14015d,
  0x1a0242300800409a00841bf2600654003e00bd09010000000000383f3f0e020146147f0000000000000800023c0a0a7d64514f3c5f015e,
  0x24411240450ba34a5b336600008000300930804001b0296003b3b3b0b060046197f000000f300f30001022d0000464646464646015f,
  0x4aa6491250580bae4edb3362100dc000a009a0301000000007810101005050346147f0000009c0000040002c80000783c28465a3c0160,
  0xa5011225100bb00b5970e2800170006003b0401000000009682770f0b0b0423197f000000f70000000401e10707213f2d234b2c0161,
  0xa50112b5180bb00b5974e28007d000b009f0401000000005a82770f0b0b0423197f000000f700000008022d07073f53414173400162,
  0xa5010225180bb00b4173e2800960008003b040100000000781a1a1a0b0b0423197f000000c40000040001be07075a1e195a28140163,
  0x42a50b02a5180bb40f6177e2801320010009f0401000000005a2e2e2e0b0b0423197f000000c400000410025a0707823c198246280164,
  0x5a260242800109a808639463003e8001400a10301000000003c8b5e2207010546197f000000000000000202c8020b5748335344630165,
  0xa70112001119b01b41f8e2c000a000600950101000000005a1a1a1a0b0b0446197f000000c600000500022d0d0d505f414632410166,
  0x4e251956f1521bbf4a5937e6901d6000c00a3480100000000009a692e05050323197f0000000000000008021e10103c4b4b3c82410167,
  0x8c00060034010100000000008c17170f0f0046147f0000000000000001017d0d0d30171730175f0168,
  0x240402000009a00a41bb26000a80007003c070100000000008d73270a060046147f000000c70000000101be0e0e3232323232320169,
  0x240622a80009b00a61bfa600a05000f00a8070100000000008d73270a060046147f000000c700000002024b0e0e505050505050016a,
  0x1e2240e00000019a4086133260018b0008003a0101000000005a0c732f05020346147f000000000000000101ff0a0e323719322846016b,
  0x1e2240e00000019a4086133270036c000b00900101000000003c0c732f05020346147f000000000000000202780a0e464b2d463c5a016c,
  0x1e2240e00800019a408613727005e2000e00ef010100000000000c732f05020346147f0000000000000003032d0a0e5a5f415a506e016d,
  0x1a0240000000409a0084133260020d00040045010100000000009b4b4b02020146147f000000590000001001ff0a0a374a20554023016e,
  0x1a0240000800409a4084137260010e001100aa0101000000000029212102020146147f000000e200000014023c0a0a4b5e34696837016f,
  0x1a0240100800409a00b41b726000e2001200aa090100000000005d212102020146147f000000e300000200023c0a0a4b72346954370170,
  0x1a2240b05800409a50865b726800ea000a00aa070100000000000545210c020546281f000000e3000000110219050a412d37825a640171,
  0x1a0240100000409a00841b3260005700060074090100000000005d21210c0c044614bf00000000005d004002e10a0a412861371e2b0172,
  0x4000000004a240800104009ae4c413063301a50006003c0101000000005a7d45450e0e0523287f000000fa00000004012d0f0f1e28323c4b2d0173,
  0x4000000004a240800104009ae4c41306330451000b0093080100000000788e45450e0e0523287f000000fa00000020022d0f0f323c32645f410174,
  0x4000000005a242a04904009ae4c61346330402000f010e010100000000009916160e0e0523287f000000fa0000000c032d020f506e6450875f0175,
  0x3b80006003c0101000000005a871d1d0a0a052328ff000000e90000001001030d083c231e5037280176,
  0x4a660b23080008ad9f617c62507e9000c00930101000000003c871d1d0a0a052328ff000000e90000002002030d08503732644b3c0177,
  0x4a660b23880008ad9f617c625157c0010010e01010000000000871d1d0a0a052328ff000000e90000003003030d085a5f468287500178,
  0x42240b15881888a50cfd9462008fc0011010505010000000000051d1d0f0f052350ff000000000000003003030505643232c864500179,
  0x42640f11881888a40c79b726006d60012010501010000000000731d1d0f0f052350ff0000000000000c0003030e0ec86432643250017a,
  0x42640b11981888ad0c79b462108020013010507010000000000871d1d0f0f052350ff000000000000042003030808964b32964b50017b,
  0x400000001b8270312d01109a91b7bfd63f0190000e010e000100000000001a1a1a0f0f055a78fe0000000000000c0003030d0f826e6e5a5050017c,
  0x400000001b8270312d01109a91b7bfd63f02580014010e010100000000001a1a1a0f0f055a7800000000000000030003030d0f6e826e505a50017d,
  0x1e2240b10800408a40c79b72780dc0002d012e010100000000000202020f0f050078ff000000000000030003050a0a8c965a5a6464017e,
  0x4a242b559048a8af4cff946b3251c0023012e000100000000004646460f0f050078ff000000000000000c030504045a645a8c9664017f,
  0x400000001f2242b749069b8af4c7b376b3081100460132030100000000004c4c4c0f0f050078ff00000000000001080303020f5a965f5a96690180,
  0xf70112801908a91b59fc62c000b0003010e020100000000002020200f0f056478ff0000005b005b000303030d086464646464640181,
  0x4ae789128019ccbc1f5bfde2c02600011010e0004001e028a002e2e2e0f0f050078ff000000000000014403030d0d3296963296320182,
  0x100000004a260042000109a0184398620006600040040030100000000004b414107010346141f0000000000000004012d0b0b372d1f4044370183,
  0x100000004a260042000109a018439862003ca000b008e030100000000004b414107010346141f0000000000000014022d0b0b41372455594b0184,
  0x900000004a260a47800109a518639c6300c1c001600ec430100000000004b414107010346141f0000000000000018032d040b554b38696d5f0185,
  0x200000004a36004013482dfa4cc110ea1003e0005003e4501000000000059424208050346141f0000000000000040012d09092c3a3d2c3a2c0186,
  0x200000004a36c8405348adfe4cc110ea100dc0009008e4501000000000059424208050346141f0000000000000140022d0109344e51344e400187,
  0x1200000004a36ca44d348adfe4ce314eb90226000c00f00501000000000059424208050346141f0000000000000144032d010947686c47684c0188,
  0x40000001a82e0000008c19ac0cc13326000340004003f0101000000000080434305020346141f0000000000000100012d0a0a383d283533350189,
  0x40000001ea2e0000108c19ac0cc13326100e60008008e0101000000000080434305020346141f0000000000000200022d0a0a4c5132444240018a,
  0x240000001ea6e0a40908c19ac0ce137271034d001100ef0101000000000080434305020346141f0000000000000300032d080a656f3c585654018b,
  0x103c400000001ba80841306200014000300310501000000005a333333040403460f7f000000bc0000004001ff02001e1e3c1e3728018c,
  0x103c400040001ba8084130620009b000600770501000000003c781616040403460f7f000000bc0000008002780200282850324b37018d,
  0x103c4000c0001ba808413462000f9000c00d605010000000000781616040403460f7f000000bc0000000c032d0200323264467855018e,
  0xa2e401040101ba00ad933e2000c8000500320501000000005a8d6d56050200460f7f000000000000000101ff000028231f282d3b018f],
  [0x1ea2e4210c01c1ba00ad937e20013b000a00900501000000003c8d6d56050200460f7f0000009e009b0008027f0a003c37473c554f0190,
  0x160003002700010000000000323d3d030303460f7f000001150000001001ff06062919192919250191,
  0x4a2410c2800219a80c4134e2100ff000a008600010000000000654444030303460f7f0000011500000008022d060633374133554d0192,
  0x4524001a00100ba0085938230005f00050035010100000000783e164f05050346147f000000000000000401eb0c0c22282d22412d0193,
  0x4524001a00100ba008593823001310009007f0101000000005a3e164f05050364147f000000000000000802780c0c313c3c31553c0194,
  0x4524001a80100ba008593c23001a4000e00eb010100000000003e164f05050346147f000000000000000c032d0c0c4f5f464f78500195,
  0x8260142000109a08a4330720000c000200384301000000007866261e0f0f0346147f000000f50000010001ff030b463237231e280196,
  0x8268142800109a08a43347200091000900e34301000000000065261e07060346147f000000f500000300034b030b697d5a37463c0197,
  0x42240a4520480ba748fd33630013b00090046010100000000007d6868010101461e1f0000000000000004012d05051e1e3a287d430198,
  0x6a242a45a0488ba74cfd376300401001000ad010100000000007d6868010101461e1f0000000000000008022d050532413a3ca5610199,
  0x42640a05004009b748fd33e30023a00050046070100000000002b0505010101461e1f0000000000000010012d0805582a1e762a1e019a,
  0x42640a05804009b748fd37e3005d7000d00ad070100000000002b0505010101461e1f0000000000000020022d08058a2f1ea8343c019b,
  0x220002002d070300210000008e3d3d030300460f7f0000000000000400017806062d1d242d1d28019c,
  0x27018280010ba00b43b472000410005009407030023028d008e6b6b030300460ffe000000de00000800022d0b06694f24553b3c019d,
  0x35018282010ba80b43b472000e900090094020100000000006e4444030300460f00000000de00000104022d0206325e42325e46019e,
  0x370003003102010000000000377676030303460f1f0000005e005e0040017802062a1e462a1e1e019f,
  0x834108282880ba88841347210181000c00a6020100000000007f2e2e030303460ffe000000f500000410022d020666502866504601a0,
  0x836001a001819a008d93822000270004008e080100000000780a3532060500640a7f000000000000004002c80c0c5a2d5f462d3c01a1,
  0x1e2240000000419a40cc1332e00127000700420501000000007829212105020046147f000000ba0000004001be0a0a1e3c5523413701a2,
  0x1e2240000a00499b40cc137af0014f000b00ad0501000000005a29212105020046147f000000ba00000080024b0a0a32557337695501a3,
  0x260042000109a00843906200021000400370901000000000022222207060046147f000000ef0000010001be0b0b353e232d232d01a4,
  0x260042800109a0084394620005d0005009e090200250000007a7a7a07060046147f000000ef00000200024b0b0b4e5755463c4601a5,
  0x120240000000409a0084133260003f00030041060200260000009f723c0b020046147f000000000000000101be0a0a3e392230304c01a6,
  0x1e2240a06800409a5a8e137260012b000900a6060200270000009f723c0b020046147f0000000000000002024b040a525c2744536f01a7,
  0x4a374010f2080fa80edb34e2100cb000c00a9060100000000005c356505050464147f0000000000000080022d0000423c7342644b01a8,
  0x82501322f100ba00b5970628000c00040046060100000000008a546a0b0b02461e7f0000000000000001017d02072c3c4622325a01a9,
  0x18250132af100ba00b59746280096000c00ae060100000000008a546a0b0b02461e7f0000000000000002023c0207365a502c509601aa,
  0xa264010401809a00acb316200037000400460501000000000007673208050000147f000000bd0000004001be0000382c552c423701ab,
  0x4a264010c0188da00adb37620014d000c00a8050100000000000767380805008c147f000000bd00000080023c0000603669544c4101ac,
  0xa50112a5111bb80b5974e28002c000900ad060100000000001a1a1a0b0b0423197f0000000000000500022d07076969693c3c3c01ad,
  0x142d0110e4c00bb80b4134e280111000900b10401000000000099690f04040323147f0000000000000008021e0210346947347d6401ae,
  0x835410270001bb80ad930e2100270005003e070100000000003314070505044614bf000000950000004001be0000252a552a373101af,
  0x8354302f0001bb80ad934e3101b6000a009e0701000000000080142f0505044614bf0000009500000080024b00003b407040524701b0,
  0xa70112001019b01b41f8e2c000600020039020100000000781a1a1a0f0f0446197f000000c60000010001780d0d32412d321e2d01b1,
  0xe24000038400bb2cac130f3100c00004004206010000000000336a0105050046147f000000970000004001e1100329294a2f3f3f01b2,
  0x4e248000b8400bb2cac134f31017c000a00a806010000000000336a0105050046147f0000009700000002023c10033d4754435d6701b3,
  0xe70b23201008a51b63f862c025d0005003c0301000000005a86551a0a0a004614ff000000e90000001001ff0d0856181756183901b4,
  0x42e70b23a81008a51b63fc62c074e000d00af0301000000003c86551a0a0a004614ff000000e900000410025a0d08744f2174594301b5,
  0x24090108000ba50cc51062800960005003a050100000000009b45050f0f0046147f000000000000001001ff05052d0a0a5f503201b6,
  0xa7011200180bb01f5bf8e2c00820006003e09010000000000656f2b0f0f0046197f0000009a0000040001910d0d5a463c2d191401b7,
  0x274112004819a24b43b866000f40006006e0901000000000084201e0f0f048c28fe000000e7006e000101820000410f1e05056401b8,
  0x103c400000001bb8084130e2000130005009004010000000000914d3304040323147f0000011500000004021e02002a5c5b2d414c01b9,
  0x4250102c5800bb40b4174e280438000a00aa06010000000000972e2e0b0b00461e7f0000000000000410026410076c5c236c5c3201ba,
  0x4000000004a240a04104009af48e13063300cd0007003c0101000000005a1808080e010546287f000000c500000004012d040f2d282a2d463a01bb,
  0x4000000004a240a04104009af48e1306330230000e0090010100000000001808080e010546287f000000c500000008022d040f373252415a4401bc,
  0x4000000006a24aa44904a09af4ce13463303b60013010e010100000000001808080e010546287f000000c50000000c032d040f5550665f826c01bd,
  0x62244a00404809a74f7b33620041a0006004e04010000000000522f350f0f0546281f000000ea00ea00010132000055280528558701be,
  0x4224ca4070088da40ce1306b000ca00070039010100000000789e27500f0f0346191f0000000000000004014b010128233c28462801bf,
  0x4264ca44f0088da40fe1346b9021c000c00b8010100000000009a275008050346191f0000000000000104022d080146735a466e4601c0,
  0x42240a00000009a508e11063001ef000800420501000000003c9f2d2d050505461e7f0000000000000010018c04042a26204e484401c1,
  0x42240a04800009a508e1146300bb8001400b8050100000000009f2d2d050505461e7f0000000000000020023c040448442f76706c01c2,
  0x4a2490c2200a0bbc8ec130f210078000800420601000000007833610409030546147f000000f50000001001780603371e415a322801c3,
  0x4e249ac2e00a0bbc8ee134f310267000d00af0601000000003c33610409030546147f000000f500000020022d10034b3c5f6e5a4601c4,
  0x4224da0064088fb4aee130fa000e60007003c010100000000968f576b080800640a7f0000011900000004018c0103283d32283d3001c5,
  0x4a24da44e4088fb4aee134fa001bc000d00ac010100000000788f576b08080046147f0000011900000008024b0103415655416a5301c6,
  0x8260042a0090ba0884314620010e000e009f0301000000003c1a1a1a07070546197f000000000000000802c80b0b485a2e48644a01c7,
  0x1a0340102200409a00841b3260004600040042010100000000002972210c0c0146147f000000bb0000004001be0a0a3d314238313101c8,
  0x1a0340102a00409a00841b726000f0000c00a1010100000000002972210c0c0146147f000000bb00000080024b0a0a56455b4c454501c9,
  0x1a0240a00020409a8086133260028a000a004501010000000000290b210f0f0546197f00000000000004000119020a783c3232142d01ca,
  0x260442000109a00a43bb26001f9000a0043080100000000002b757507010546147f000000f60000000401780e0b3c3e28323e3c01cb,
  0x42260e42800989a40e63bf260054b001600ad080100000000002b757507010546147f000000f600000104023c0e0b555c3c4b5c5a01cc,
  0x6e259140f40a8fb81ec137e690154000b00b3040100000000007c2e2e05050323147f000000d9011e0044022d0e10552d7d41784601cd,
  0x164013a881008a018593c6200708000c00f10701000000000094052a0a0a004614ff000000e900000300031e080c5a823c73464601ce,
  0x6a256b60c8488ba74efb376200578001100b4090100000000000d0c1401010046147f0000011700000003021e00005f50325f556e01cf,
  0x6a64aa45b0488ba74cfd376300b0c001800f10701000000000078741f05010546147f000000000000000c031e0504373728828c7301d0,
  0x4a268b42a0098bac9c63146200506001400bb0101000000000090662207070046147f0000000000000020021e0b0b326e327d646401d1,
  0x43240a1a80188fb44df93ca20056a001200f302010000000000484e4e08080046193f000001420000000c031e0c0c555f5f437b4b01d2,
  0x42240a008148aff64d6b14e2002a8001000f34001000000000048313108080046193f0000014300000300031e09095f7d53435f4b01d3,
  0x122f4112c04819aa5f43fc624017c000f00f548010000000000692037060404460a1f0000000000000600031e02007378505f325501d4,
  0x35018280000ba80b43146200203001300b403010000000000776e0303030046147f0000010900000008021e020638745f564c5601d5,
  0x42265042c00119a80ac33463000ff000a00b80301000000000022666605050023231f0000000000000020022d0b0b413c5f826e4101d6,
  0x42244400c00019a00ac1376700103000800b80101000000000073515105050023231f0000000000000200022d0e0e5f82416e3c4101d7,
  0x4a349ac5a20a0bbd8ce134f2101a9001400b3060100000000005a083403030346147f0000000000000020021e02044b2d5f7d5f4b01d8,
  0x42240a04800009a518e13f2700b5e001900ef050100000000002f510c05050546147f000000000000000c0332040e3c465050826e01d9,
  0xa5011284100aa80b5b376240154000900f10001000000000094585b0a0a004614ff0000000000000300031e00004b875a46505501da,
  0x4aa7db56c11adfbc1f69fceac0208001000e9080100000000009a50500b0b05231400000000000000000c032d010d734150417d4401db,
  0x42640a1d880009b5087d14e200d48000e00b8070100000000009f2a050a0a0046147f000000ee00000810023c0805964b2891373c01dc,
  0x42a50b02a5188bb40f6177e28042a001600ec040100000000002e2e2e0b0b0423197f000000c400000810032d070787412d87642d01dd,
  0x250512a40809b00b59ffa60010a000d00a8080100000000008251510a06004614fe000000c700000080024b070e46506e46504601de,
  0x25011a01100aa01a597862000030003009a000600280291001a1a1a0b0b004614ff0000000000000140022d070c4d5f5b4d323201df,
  0xb70112821908a11b5bfc62c000300030105020100000000001a1a1a0f0f058c50ff000000000000042003030d0d824b5f824b4b01e0,
  0xb70112821908a11b59ff62c000300030105090100000000001a1a1a0f0f058c50ff000000000000050403030d0d69695069695001e1,
  0xb70112aa5908b35b59fce2c000300030105010100000000001a1a1a0f0f058c50ff000000000000010803030d0d467d73467d4b01e2,
  0x4000000004ae42b16904038af4c79b76b31aae00360132080100000000008c2e2e0f0f050078ff0000000000000300031e0f0864965a78786401e3,
  0x4000000016aa42b14904898af4c79b76f30d20002a0132060100000000008c2e2e0f0f050078ff0000000000000300031e0f0a78966464785a01e4,
  0x42640a04a94029f648e314e3010cc0011010e050100000000003112120f0f05640a7f0000000000000300030308096a824d6a5a5b01e5,
  0x42240b15e008882c0c7da462010680025012e080100000000007070700f0f050078ff000000000000000c030300006e50646ea06e01e6,
  0x4000000005a252314b11118a80b79f463b1d4c002d01320402002d0290008c2e2e0f0f050078ff000000000000000303030f0778645a78649601e7,
  0xa70112801109a01b43fd62c0358000f010e020100000000001a1a1a0f0f056478fe0000000000000c0003030d0d824b5578467801e8,
  0x1a0360100000c08a00841b3260001f000400d8010100000000005d5d5d0602054628ff0000000000000001031e0a0a50505050505001e9,
  0x1a0360102800d08a01b41bf268000e0003010e010100000000005d5d5d060205460aff000000000000000303030a0a64646464646401ea,
  0x4e259952f5588abc8f5937e2801f9000f010e040100000000007b7b7b0f0f050078ff0000000000000240030310105a877d5a5a4601eb,
  0x260142800108a009439462000150002010e0302002e028f001e1e1e0f0f036478ff0000009d009d0003032d0b0b64646464646401ec,
  0x400000000fee7db56f1d1b8afdf7bff67f0c8000200144871100000000007979790f0f050078ff00000000000000030303000078787878787801ed,
  0x3b641128559a8e24f5bdce2400280004010e02010000000000a2a2a20f0f056478ff00000000000000030303090d64646464646401ee,
  0x1000000008260042000109b8184398e2800510006001c030100000000007e414107050346141f0000000000000040012d0b0b372d3f372d2d01ef,
  0x1000000008260042000109b8184398e2800a000080091030100000000007e414107050346141f0000000000000080022d0b0b4b3c534b3c3c01f0,
  0x900000004a262042800109b818439ce280276002100ee030100000000007e414107050346141f00000000000000c0032d0b0b5f4b715f4b4b01f1,
  0x2000000043260020014039e6484310e3000630005001c000100000000002f424205050346141f0000000000000001012d09092d2d2d2d3f4101f2,
  0x200000004326ca240148bde64c4310e30022b000a0092000100000000002f424205050346141f0000000000000008022d0109374637375d5a01f3],
  [0x1200000004326ca24814cbde64c6714eb005dc001000ee4001000000000078424205050346141f000000000000000c032d0109416441417b6e01f4,
  0x40000001aa261040400e09a808c133a60003b0005001c010100000000004b434305050346141f0000000000000100012d0a0a2d3f2d2d373701f5,
  0x40000001aa261040400e09a808c133a6000f500080091010100000000004b434305050346141f0000000000000200022d0a0a3c533c3c4b4b01f6,
  0x240000001ea263040c00e09a808c137a6003b2000f00ee010100000000004b434305050346141f0000000000000300032d0a0a466c4655645f01f7,
  0x8264040400809a00ac93062000740005003305010000000000943332050500460f7f000000000000000401ff000027232a27372d01f8,
  0x4a274152c00889a04ad93c620010e000b00930501000000000094332305050046147f000000000000000402ff0000453c4d45553c01f9,
  0x7244010c00009ac0ac93063000290004003705010000000000323548050503460f7f000000000000000401ff00002d19372d3c2d01fa,
  0x67244010e00009ac0ac93063000930009008207010000000000719216050503460f7f00000000000000080278000041233c41504101fb,
  0x67244010e00009ac0ad9346300262000c00dd07010000000000719216050503460f7f000000000000000c032d00005a2d505a645501fc,
  0xc27011034001bb80a4130e21006500040038060100000000009e540705050046147f000000000000004001ff101025324225322901fd,
  0xe270110b4001bb80a4134e210177000b009c060100000000009e540705050046147f0000000000000080025a101032586a32584001fe,
  0xa26400232090fb408c310e2100690006003f0301000000000041525205050046141f000000b8009b004001be0b0b30354030353201ff,
  0xa264802b2098fb40cc314e210131000b00ae0301000000000041525205050046141f000000b8009b0080024b0b0b3f62653f624b0200,
  0xa26400033482ff648c310e21006e0006003f0001000000000042525205050046141f000000b9009b004001be09093035403035320201,
  0xa264800b348aff64cc314e210118000a00ae0001000000000042525205050046141f000000b9009b0080024b09093f62653f624b0202,
  0x1aa264000320c0fb408c133a6100870006003f0101000000000043525205050046141f000000bb009b004001be0a0a3035403035320203,
  0x1aa264800b20c8fb40cc137a610122000a00ae0101000000000043525205050046141f000000bb009b0080024b0a0a3f62653f624b0204,
  0xa50932001109b41b41f822c00e90006003a090100000000008c1c6c050504460a7f000000000000000101be0d0d3743182d194c0205,
  0xa50932801109b41b41fc22c025d000b00aa090100000000008c1c6c050504460a7f0000000000000002024b0d0d5f6b1d5537740206,
  0x103c4000000019a8084130e20001500030035070100000000004f6991040403460f7f000000000000000401ff02001e242b3237320207,
  0x103c4000000019a8084130e2000960006007d070100000000004f6991040403460f7f0000000000000008027802002a32413e4d3e0208,
  0x103c4100800019a8084134e200122000c00d7070100000000004f6991040403460f7f000000000000000c032d020037415d5069500209,
  0x124001a001009e0085938220012a0008003b040100000000009d4e1f05050046147f000000000095004001be0c0c20324c203c2d020a,
  0x324001a801029e008593c220031b001000ae040100000000009d4e1f05050046147f0000000000950080024b0c0c3f50743f644b020b,
  0x42640a05080009a508651022000b400040038010100000000009f05050a0a03460f7f000000ee00e5001001ff050519190f554b37020c,
  0x42640a05080009a508651022003fc00090089010100000000009f05050a0a03460f7f000000ee00e5001402780505283214696946020d,
  0x42640a05880009a50867142200a28001100e3010100000000009f05050a0a03460f7f000000ee00e5000c032d0505463c19828755020e,
  0x10bd013206110bb81b41f8a2c00150004003f0101000000000056676d040500460f7f000000000000004001be020d2b37482b2d37020f,
  0x10bd013286110bb81b41fca2c0069000900950101000000000056676d040500460f7f0000000000000080022d020d374d723739430210,
  0x4a249a40100809ad8ce11022100550003004247010000000000689f9205050046147f0000000000000004017804042d1e4428553c0211,
  0x4a249a40900889ad8ce1142210194000700b247010000000000689f9205050046147f0000000000000008023c08044132583c876e0212,
  0x21a74112405819a25bdbff62c0136000b01860901000000000067908306060446147f0000009e009b000202ff0000563c32563c670213,
  0x4226c80460088da40cc530ea0007d0006003d07010000000000597d3e08080346143f000000000000000401b4010123192337504b0214,
  0x4226c80460088da40cc530ea00190000c008e07010000000000597d3e08080346143f0000000000000008025a01013228285569550215,
  0x4226ca04e0088da40ce534ea00366000e00e305010000000000597d3e08080346143f000000000000000c032d010141372d5f8c690216,
  0x20240000000419a0a84130260002d0005003b010100000000000b5d2102020346147f00000000009c004001ff0a0a2832402832320217,
  0x22240200000419a0a8413026000aa00080086010100000000000b5d2102020346147f00000000009c00020278040a37414537414b0218,
  0x62268a00a00c99a4ace134360026c000f00e1010100000000000b8f2102020346147f00000000009c0003032d040a4b554a4b55690219,
  0x4226ca04e0088da40ce130ea0022b000d00a30001000000000068273e080800461400010c00f100000002022d0101551e2d556478021a,
  0x4226ca04e0088da40ce130ea001fe000e00a341010000000000682705080800461400010c00f100000008022d01014b1e554b7d4b021b,
  0x8270082200109a008439862800190003003e020100000000008e2244030303460f7f000000db0000001001ff0b063c282a46352d021c,
  0x8270082200109a0084398628004900050085030100000000008e2266030303460f7f000000db0000002002780b0650322a5a3f37021d,
  0x82790c2f00309a818439c62900cd000c00dd020100000000008e2244030303460f7f000000db0000000c032d0b0646465c50674b021e,
  0x22480a0200009a0884310720003500040034000100000000005f4426030303460f7f000000f50097001001ff0306271e393b2d1e021f,
  0x22480a0200009a08843107200249000c007e070100000000005f4426030303460f7f000000f500970020027803064f282f6337280220,
  0x4a249ae0a00009a488e31472007d5001900d6000100000000005f442603030346147f000000f5009700c0032d0306453770595a3c0221,
  0x270002000109a0084390e200006000300380301000000000022979e06070046147f000000000000004001be0b0b3225423c1b280222,
  0xb7000280090ba00b439ce200042000700a80301000000000022979e06070046147f0000000000000080024b0b0b4b4d7455433c0223,
  0x8270002000109a0084390620004200050038030100000000006614220707004614fe000000000000010001be0b0b32461e32232d0224,
  0x8270042800109a008439c62000a3000b00a8430100000000006614220707004614fe0000000000000200024b0b0b4b6e5a4b3c460225,
  0x1a8240000000409a0084131a6000b4000a00a10302002f029900685b780c0c0046287f000000e20000008002190a0a375062415c460226,
  0xc240a0464400bb588e110a3100980007003a0501000000000053991605050346147f000000000000000401b410042323412348320227,
  0x4e260a0474480fb58ce110a31014e000a007b0501000000000053991605050346147f0000000000000008025a10042d2d4a2d523c0228,
  0x4e262a04f4488fbd8ce514ab303c3000f00e50001000000000053991605050346147f000000000000000c032d100446415c46755f0229,
  0x4236482001482be64cc310e3001770006003f0001000000000027373705050346147f0000000000980004017809092d0f322d5a46022a,
  0x42364a24a148abf64de714eb003a1000d00a800020030029a00a17d7d05050346147f0000000000980008023c0909371e5f378c69022b,
  0x268000000109a80843906200118000a00a10301000000000072220b07070046147f000000ef0000020002ff0b0b436a3c43564b022c,
  0x4a249ac5100009ad08e71022100910003004100010000000000854b050a030046147f006a00ee0000001001be0506232337554132022d,
  0x4a249ac5900009ad08e71422107d0000e00a600010000000000854b050a030046147f006a00ee00000020024b05064b412d7d5f46022e,
  0x4626e80460488db48cc530eb20076000600460201000000000016993d0e0500230f7f000001270000000401b40110462330464b32022f,
  0x4626e804e0488fb48cc534eb2012c000b00ab0001000000000016993d0e0500460f7f0000012700000410025a0110732d3a735a410230,
  0x10ed011200110ba81b47fd22c008c000e00ac040100000000006e629304040046147f0000000000000200022d020d506761503a480231,
  0xa5010225010ba00b41f0228000f0005003d040100000000009898980b0a0046197f000000f70000001001be070741371e551e260232,
  0xa70102a5010ba00b41f422802fd001100a9020100000000009898980b0a0046197f000000f700000020025a0707695f1e91323a0233,
  0x1e2240a05000409a508e53322000a50007004701010000000000210574090200461e1f0000000000000010012d050a2d3516674e360234,
  0x1e2240a05800489a508e537220032a000c00ad01010000000000210574090200461e1f0000000000000020022d050a415320856c4a0235,
  0xa3c0a05120009bd08e510a33005f0005004702010000000000818181090400461e1f0000000000000004012d02052d4a462d70370236,
  0x1a3c2a05920089bd08e514a330140000e00b102010000000000818181090400461e1f0000000000000008022d020541706e418c4b0237,
  0x24000028000ba0a84130720013600060042030100000000006a3c010a0a0046147f005c01190000004001be03033e28413e32320238,
  0x240001a8088ba0a94f347200431001300a6430100000000006a85010a0a0046147f0245005c01190008023c0303523c4b525f500239,
  0xc36014064480bb80ac130e39007d000700420701000000000095959505050346191f0000000000000100014b1010285041284128023a,
  0xe360140f4488fb84ac134e39032b001000b30701000000000095959505050346141f0000000000000200022d10103c78693c693c023b,
  0x36401040081ba008c9b0628003a0004003c070100000000005c6538050504460fbf000000000096004001ff000028284b283237023c,
  0x364010c00899a008d9bc628004b000500a5070100000000005c6538050504460fbf0000000000960080023c00003c41733c5f4b023d,
  0xa7091224190bb41b49f8a2c003a0004003a060100000000001777770808034614bf000000000000040001c80d0d41372d321e2d023e,
  0xa7091224190bb41b49f8a2c00b400070089060100000000001777770808034614bf000000000000080002640d0d554b37462d3c023f,
  0xa70912a4190fb41f49fca2c01b8000f00dd060100000000001777770808034614bf0000000000000c0003320d0d6e5f415f37460240,
  0xe509320c0109a41b51f822c000a0003003a4301000000000090628e0b0b0346147f000000000000010001c80d0d326914281e2d0241,
  0xe509320c0109a41b51f822c0050000600820301000000000090628e0b0b0346147f000000000000020002640d0d3c7d1e3228410242,
  0x42e709328c0989a41b51fc22c00c9000a00dd0301000000000090628e0b0b0346147f000000000000030003320d0d557d1e4b416e0243,
  0x1302c0000000409a808413126000370005003d010100000000005d913304020046147f000000000000000101be020a322c37322c3e0244,
  0x1302c0000800409a808413526000f2000d00a6080100000000005d913304020046147f0000000000000080022d020a3f57623f574b0245,
  0x640400080009a008413ba6000390004003d080100000000008573730a0a0546147f000000000000010001ff0e0e3c412c3232240246,
  0x640400080009a008413ba60019a000b008a080100000000008573730a0a0546147f000000000000020002780e0e4b503b4141330247,
  0x640400880009a008413fa60023f000d00f1480100000000008573730a0a0546147f0000000000000300032d0e0e5f6e4f555f470248,
  0x1264012400119a00a43b862000c30006004302040031000000209d2205050046147f000000000000004001be0b0032284b323c3c0249,
  0xb264052c00119a00a43bc620039d001300a605040034000000209d2205050046147f0000000000000008024b0b00463c5f466450024a,
  0x934001a021809a8085938a20003200040096080100000000004e090905050046147f000000950095008002c8020c3c4b673c4b37024b,
  0x82490c0000309a8084130220003b0005003f01010000000000633d44030300460f7f000000000000000401c806062d283c2d4b32024c,
  0xa2490c0800389a8084134220014a000a00ad070100000000008e4b44030300460f7f0000000000000008024b0806693c14698746024d,
  0x260002200109a0884330720000a0002003b08010000000000901b1b07070046147f024400570056000101be030b37370f2d3745024e,
  0x260002a00109a08843347200069000600a248010000000000901b1b07070046147f0244005700560002024b030b50551e465572024f,
  0x1a0a50102010509a0ab41b3a60014a000c00430801000000000006820b0b0b0046147f000000000000040001be070a5541283228370250,
  0x1a0a50102810509a0ab41b7a600546001600a80801000000000006820b0b0b0046147f0000000000000800023c070a69553c463c640251,
  0x1a0240100000409a00b41bb268013c000c00a509010000000000905d830c020446287f0000000000000002024b0a0a2d2841504ba50252,
  0x924909a00110ba008493822000060001004002010000000000447f0e03030046147f000000000000004001be0c06323941322f320253,
  0x924909a80110ba008593c220008f000800a502010000000000447f0e03030046147f0000000000000080024b0c063c616c3c4d460254,
  0x2648033280108a0084b1062100bc0006003d07010000000000a0a0a00a070046147f000001200000001001ff080b56180a5b322c0255,
  0x4a668273b80108a9085b14621044c000a00ab07010000000000a0a0a00a070046147f0000012000000020025a080b743614835e4a0256,
  0x2640019001008a108491422000d20003003c470100000000001d3a390a0a034614ff0000000000000010018208083c2d1e4637280257],
  [0x2640019001008a108491422001fe0006009a470100000000001d3a390a0a034614ff0000000000000020023c08085546325f503c0258,
  0x2e40019801008a1085914220032a000600ea470100000000001d3a390a0a034614ff0000000000000030031e080855465a73643c0259,
  0x300020037080100000000001a1a1a0b0b0546147f000000000000004001be0c0c282d3c283723025a,
  0x174001a021009a008593822000dc000c008e010100000000001a1a1a0b0b0546147f0000000000000008023c0c0c464b28465541025b,
  0x4b76281a821009a44c593c2330325001500e8010100000000001a1a1a0b0b0546147f000000000000000c031e0c0c506932507355025c,
  0xa5091204115ba41b49f822c005a0005004301010000000000941c8c08080046147f000000000000010001ff0d0d37551e373737025d,
  0xa5091284115ba41b49fc22c0159000a00aa05010000000000941c8c08080046147f0000000000000200025a0d0d5f7d284b4b4b025e,
  0xa5010225412be24b43d0e28001f00030037480100000000001731120b0b0346147f000000000000010001be0907374114371e32025f,
  0xa5010225412be24b43d0e28008200060082040100000000001731120b0b0346147f0000000000000200025a09073c5f373c283c0260,
  0xa50102a5412be24b43d4e280157000a00ea040100000000001731120b0b0346147f0000000000000300032d09075a91505a373c0261,
  0x4000000004a249040a04a09ac08c130e3300b400060040030100000000007f684f0e010523287f0000000000000004014b0f0f281e393c572e0262,
  0x4000000004a24b040b04a09ac08c130e330168000a0090030100000000007f684f0e010523287f0000000000000008023c0f0f3228434675420263,
  0x4000000006a26ba40b04a89ac0ce134e33041f001200f3020100000000007f684f0e010523287f000000000000000c032d0f0f463c615a934c0264,
  0x6a260400100819ac08c13326100550005003d080100000000009b515105050046147f000000000099000401780e0e283c282846370265,
  0x16a260e44900899ac0cc137af10a28001a00aa0801000000000021515105050046147f0000000000990008023c0e0e504632506e5f0266,
  0x6484000a0009a018433f26005c8000b00aa010100000000001a1a1a0a0a004619ff000000f60000080002190e0e875f691e32460267,
  0x240080000109a0884130320004d0004003d000100000000008e4b5d030300460f7f000000000000001001c806064128195528320268,
  0x340080800189a188413432000fd000800ad00010000000000543c5d030300460f7f0000000000000080024b06063c64912846500269,
  0x20240a16200409a5a8f930220006e000700a5050100000000000807090b020046147f000000ed00000002024b0c0463512054426d026a,
  0x4236c94462088dac1cc130ea800c8000900460201000000000078902708050346197f000000000000000401b4010132374132552d026b,
  0x4236c944e2088dac1cc134ea80163000e00b30601000000000078902708050346197f0000000000000008022d01013c5f693c7d41026c,
  0x4000000006e642a00f05889bcc8e534e33056e001000aa00010000000000687d18010e00461e7f000000fa00000008022d0f0f5a3c305a784d026d,
  0x42260a2300088ea40f61f12200398000a003d430100000000006367590a0a004619ff0000010d0000000401be0704322323324a3b026e,
  0x52660a2780188ea40f6bf52200ce4001c00a9430100000000006367590a0a004619ff0000010d00000008025a0704503737507c59026f,
  0xe269051740a0fbd0cc130a21006600050044000100000000002e278008080023147f00000000000000040178081028283c46552d0270,
  0xe269055f40a8fbd0cc134a2102bc001000ac000100000000002e278008080023147f0000000000000008022d0810463c46647d410271,
  0x6b24ca44e00009ac086130e2003b2001000ac050100000000002b9d7805050046147f0000000000000008022d00005f28375f6e5f0272,
  0x5a3c4800502009ac0841306a100690005004608010000000000377d33040405461400000000000000000401be020032253c3253460273,
  0x5a3c4800d02009ac0841346a1019a000f00b300010000000000807d330404054614000000000000000008023c02004b39504b7b640274,
  0x1e3c010064400bbc0a4130e20005a0005004a05010000000000858e910404052314fe000000000000001001be0210412d3c4b37460275,
  0x1e3c0100e4400bbc0a4134e20018b000c00b305010000000000858e910404052314fe0000000000000200023c02105f375069416e0276,
  0xa24000091488bae48c330e210244000e00a94001000000000049125205050046147f0000000000000200025a09094269414261550277,
  0x4a641895d00109ad08c110221014a000300a90701000000000036374403030046147f0000000000000020025a080630306d706d3a0278,
  0x4000000004224611000400bb0084130e3000ad0008003c010100000000003737370e0e0523287f0000000000000004012d0f10322d263241340279,
  0x4000000004224611000400bb0084130e3001f4000e0093010100000000003737370e0e0523287f0000000000000008022d0f1046413a465548027a,
  0x40000000072746b14a2509bb6586134e3006400012010e010100000000001a1a1a0e0e0523287f0000000000000300032d0f105a7d625a695c027b,
  0x1340080034028e24943986280120000b00480801000000000044313103030546287f0000000000000004012d090637323c375537027c,
  0x11348080834028ea49439c62801cc001000f80801000000000044313103030546287f000000de00de0300030f0906698764413c55027d,
  0x4a64d15dc00288a9184194a3909c400150105010100000000009a9a9a0f0f052350ff000000000000003003030108485a6c815a5b027e,
  0x4a24db45c00288ad186594a380a2800130105070100000000009a9a9a0f0f052350ff000000000000000c030301055a486c5a815b027f,
  0x4a265146c00388a818439ce3807d000140105030100000000009a9a9a0f0f052350ff0000000000000c000303010b815a6c485a5b0280,
  0x52360000a6688bb8ad4534aa00276000f010503010000000000809e9e0f0f055a7800000000000000000c03030202507d6f46734f0281,
  0x53760018a4788bb0ad5d34aa00262000f010501010000000000809e9e0f0f055a7800000000000000000c0303020c507d6f46734f0282,
  0x4000000005a242804b148b8e65b439c6230ce40020013208010000000000a3a3a30f0f050078ff0000000000000300032d090f78965a6478640283,
  0x4000000005b64281eb01898a41b59bc2230d7a001d013204010000000000a4a4a40f0f050078ff000000000000000c032d0c0f64785a7896640284,
  0x52360a45a80889a5ade5142a802a8000f010e050100000000007d9f9f0f0f055a78000000000000000300030302045073655a7d590285,
  0x4000000005a642804b00898a41b41bf6630cb2001e0129470100370000002e2e2e0f0f050078ff000000000000010503030e0f5a825f5a827d0286,
  0x6a24d144c00688a81841b4a7801e5000e0105020100000000009a9a9a0f0f052350ff00000000000003000303010a5a816c5a485b0287,
  0x42b74116f6199ca00f59fc62d00410006010e48020037029b002020200f0f056478ff0000005b005b054003030d0080805a4d4d640288,
  0x10741093981108e8595b1f2210339000f010e060500380000005858580f0f050078ff0000000000000144030308065f78635f78470289,
  0x4ae789128019ccbc1f5bfde2c02600011010e000400000000002e2e2e0f0f050078ff000000000000010803030d0d14b49614b432028a,
  0x4ae789128019ccbc1f5bfde2c02600011010e000400000000002e2e2e0f0f050078ff000000000000042003030d0da0465aa04632028b,
  0x4ae789128019ccbc1f5bfde2c02600011010e000400000000002e2e2e0f0f050078ff00000000000000c003030d0d5a5fb45a5f32028c,
  0x25038280000ba50be1b4720004100050094070300000000008e6b6b030300460ffe000000de00000020022d0406553b24694f3c028d,
  0x6501a280000ba00b41b4720004100050094070300000000008e6b6b030300460ffe000000de00000410022d08065f45245f453c028e,
  0x260142800108a009439462000340004010e430200000000002020200f0f036478ff0000009d009d00c0032d020b4b787f4b6764028f,
  0x4000000005a252314b11118a80b79f463b196400450132040200000000001a1a1a0f0f050078ff000000000000000303030f0764785a6478960290,
  0x25011a01100aa01a59786200003000300b6000600000000001a1a1a0b0b004614ff0000000000000140022d090c6b69566b41320291,
  0x25011a01100aa01a59786200003000300b6000600000000001a1a1a0b0b004614ff0000000000000140022d0a0c6b69566b41320292,
  0x25011a01100aa01a59786200003000300b6000600000000001a1a1a0b0b004614ff0000000000000140022d0e0c6b69566b41320293,
  0x25011a01100aa01a59786200003000300b6000600000000001a1a1a0b0b004614ff0000000000000140022d020c6b69566b41320294,
  0x25011a01100aa01a59786200003000300b6000600000000001a1a1a0b0b004614ff0000000000000140022d0b0c6b69566b41320295,
  0x24411240450ba34a5b33660000800030093080400000000003b3b3b0b060046197f000000f300f30001022d09094646464646460296,
  0x24411240450ba34a5b33660000800030093080400000000003b3b3b0b060046197f000000f300f30001022d0a0a4646464646460297,
  0x24411240450ba34a5b33660000800030093080400000000003b3b3b0b060046197f000000f300f30001022d0e0e4646464646460298,
  0x1a8240000000409a0084131a6000b4000a00a103020000000000685b450c0c0046287f000000e30000008002190a0a375062415c460299,
  0x42364a24a148abf64de714eb003a1000d00bd00020000000000a17d7d05050346147f0000000000980200023c0d09698c37691e69029a,
  0x42b74116f6199ca00f59fc62d00410006010e480200000000002020200f0f056478ff0000005b005b0054030301004d4d805a8064029b]]

/-- resources/bin/personal/personal_b2w2, 709 pieces of 76 bytes -/
def personal_b2w2 : List Nat := List.flatten [
  [0xff0000000000000000000000000000000000000000,
  0x20020000040f00000000000000400000000100000004a260042000119a08843987200045000700400301000000000022414107010346141f0000000000000100012d030b41412d31312d0001,
  0x20020000040f00000000000000400000000100000004a260042000119a08843987200082000a008e0301000000000022414107010346141f0000000000000500022d030b50503c3f3e3c0002,
  0x22020000040f00000002000000400000000900000004a260242800119a088639c73003e8001400ec0301000000000022414107010346141f0000000000000600032d030b6464505352500003,
  0x22000000001200010000000030000000000200000004a240840114839ee4cc11062300550006003e000100000000005e42420e010346141f0000000000000040012d0909323c412b34270004,
  0x22000000001200010000000030000000000200000004a240840114839ee4cc11062300be000b008e000100000000005e42420e010346141f0000000000000140022d09094150503a403a0005,
  0x22000000109200014000000030000000001200000005a242a409168b9ee4ce3146330389001100f0000100000000005e42420e010346141f0000000000000300032d0209556d644e544e0006,
  0x20000000000200012c4000004000000000040000001e2240020000c09a40cc133260005a0005003f010100000000002c434302010346141f0000000000000010012d0a0a40322b41302c0007,
  0x20000000000200012c4000004000000000040000001e2240020000c09a40cc13326000e1000a008e010100000000002c434302010346141f0000000000000410022d0a0a50413a503f3b0008,
  0x22000000000200012c4000004010000000240000001e2642a20800c89a40ce5372700357001000ef010100000000002c434302010346141f0000000000000c00032d0a0a69554e64534f0009,
  0x200000200000000010000000000000000000000000000000000000000001d0003002703010000000000321313030300460f7f000000000000000101ff060614142d231e2d000a,
  0x240000000010000000000000000000000000000000000000000006300070048030100000000003d3d3d030300460f7f00000000000000200278060619191e371432000b,
  0x60000000148200000200000000110000000000000000035018282010ba80b43b47200140000b00ad080100000000006e0e0e030300460f7f000000de00000600032d0206505046322d3c000c,
  0x20000000001000000000000000000000000000000000000000000200003002705010000000000321313030300460f7f000000000000004001ff03061414321e2328000d,
  0x240000000010000000000000000000000000000000000000000006400060048020100000000003d3d3d030300460f7f00000000000000200278030619192332192d000e,
  0x21000000148600000200000000810000000000000000a3490c2a2020ba88c43147200127000a00ad02010000000000614444030300460f7f000000f500000408032d0306502d4b285041000f,
  0x2000000010920000000000000800000000000000000103c400000000ba80841306200012000300320501000000005a914d33040403460f7f000000000000004001ff0200232338282d280010,
  0x2000000010920000000000000800000000000000000103c400000000ba8084130620012c000b007a05010000000000914d33040403460f7f000000000000008002780200323247373c3f0011,
  0x2000000011920000000000000800000000000000000103c400080000ba8084134620018b000f00d305010000000000914d33040403460f7f00000000000000c0032d020046465b4b50530012,
  0x21000000000200012480000008060000000000000000b3e401040100ba00ad933e2000230003003306010000000078373e32050500460f7f000000000000004001ff000023194823381e0013,
  0x21000000000200012480000008060000000000000004b3e4050c0100ba00ad937e3000b9000700910501000000005a373e32050500460f7f0000000000000080027f00004632613c51370014,
  0x2000000011920000000000000880000000000000000103c400000021ba80841306200014000300340501000000005a613333040400460f7f000000000000004001ff02001f1f461e3c280015,
  0x2000000011920000000000000880000000000000000103c400080021ba8084134620017c000c009b0501000000003c613333040400460f7f000000f400000080025a02003d3d64415a410016,
  0x280500000403000118000000044000000000000000040248a0020000bb4a8e13072000450014003a060100000000787f3d160e050046147f000000000000000401ff03033628372c3c230017,
  0x28050000040300011800000004400000000000000004024aa00a0000bb4a8e134720028a002300990601000000003c7f3d160e050046147f0000000000000008025a03034f415045553c0018,
  0x20100000000600010020000010120000000000000004326001a001819a00cd938220003c00040069020100000000001f0909060500460a7f000000ec0000008002be0c0c28325a1e37230019,
  0x20100000000600010020000010120000000000000004326001a80189ba00cd93c220012c000800d6020100000000001f0909060500460a7f00000000000000c0034b0c0c505a64375a3c001a,
  0x30000000000600010004000000060000000000000004a249a6010080bad0ce19062100780006003c0201000000005a92080805050046147f000000d90000001001ff04041e1428554b32001b,
  0x30000000000600010004000000060000000000000004a249a6490088bad0ce1946210127000a009e0201000000003c92080805050046147f000000d900000020025a0404372d416e644b001c,
  0x20100000000200010000000000040000000000000004a24800010000ba888d9337210046000400370101000000005a374f260501034614fe000000000000000101eb0303282829342f37001d,
  0x20100000000200010000000000040000000000000004a24800010001ba888d93372100c8000800800101000000003c374f260f0f034614fe000000000000000202780303373738433e46001e,
  0x32100000000200014d04000078040000000000000006a24aa0490c89bbfeefd37f310258000d00df010100000000007d4f260f0f034614fe0000000000000003032d0403554b4c57525a001f,
  0x20100000000200010000000000840000000000000004a24800010001ba088d933721005a000500370601000000005a374f26050103461400000000000000000401eb030328283228392e0020,
  0x20100000000200010000000000840000000000000004a24800010001ba088d93372100c3000900800601000000003c374f2605010346140000000000000000080278030337374139483d0021,
  0x32100000000200014d04000078840000000000000006a24aa0490c89bb7eefd37f31026c000e00df060100000000007d4f26050103461400000000000000000c032d04034b55554d5c510022,
  0x3db8000008660001a4910000711200000000000000042274112405819a25fdbfb62c004b00060071490100000000788462380606048c0abf02470051009a000202960000413c23302d460023,
  0x3db8000008660001a4910000711200000000000000042274112c05899a25fdbff62c0190000d00d5490100000000006d62380606048c0abf02470051009a0003031900005a553c49465f0024,
  0x200400000232000130080000000200000000000000000240100214129e248c19063000630006003c050100000000004612120505004614bf000000980098004001be09094132412829260025,
  0x200400000232000130080000000200000000000000000250100a14129e248c39463c00c7000b00b1020100000000004612120505004614bf0000009800980440024b09096451644b4c490026,
  0x3d1000000a66000084910000710200000000000000041274132405819a25fdbbb62000370005005f49010000000078843838060604460abf000000000000000202aa0000192d14142d730027,
  0x3d5000000a66000084910000710200000000000000041274132c05899a25fdbbf6200078000a00bf49010000000000773838060604460abf000000000000000303320000324b2d2d468c0028,
  0x2800000014920000200000000804000000000000000103c000022000bb88a4130f20004b000800310601000000005a972727040400460f7f000000000000004001ff0203281e37232d280029,
  0x2800000014920000200000000804000000000000000103c0000a2000bb88a4134f2002260010009f0601000000003c972727040400460f7f0000000000000080025a02034b415a46504b002a,
  0x200b0000040a000000000000004000000000000000008260042000109a08843107200036000500400101000000005a32222207070346147f000000000000010001ff030b414b1e37322d002b,
  0x200b00000c0a000000000000004000000000000000008260042000909a088431072000560008008a0101000000003c01222207070346147f00000000000002000278030b4b552846413c002c,
  0x200b00000c0a000000000000004000000000000000008260042800909a088431472000ba000c00d8000100000000001b222207070346147f0000000000000300032d030b5a643255504b002d,
  0x200a0000040e00000000000000410000000000000000a2610c200030ba88cc3187210036000300390001000000007806571b07030046147f024400570056000401be0b06372d19374623002e,
  0x200a0000040e00000000000000410000000000000000a2610c280030ba88cc31c7210127000a008e0001000000005a06571b07030046147f0244005700560018024b0b06503c1e505f3c002f,
  0x60000000040200002000000000110000000000000000024008200000ba0894310720012c000a003d06010000000000326e0e03030046147f000000000000040001be030637282d32373c0030,
  0x60000000148200002000000000110000000000000000034008282010ba8894314720007d000f009e06010000000000936e1303030046147f0000012700000140024b03064b5a5a3c41460031,
  0x30000000000200000004000008000000000000000000a240a0010001bad88e110621000800020035050100000000789f470805050046147f000000ed0000104001ff04042d235f19370a0032,
  0x30000000000200000004000008000000000000000000a240a0490001bada8e114621014d0007008e050100000000009f470805050046147f000000ed00001080023204044632783250230033,
  0x2804000000060001948800000c420000000000000000835410270001bb80ad930e21002a0004003a020100000000007f653505050046147f000000d90000004001ff000028285a232d280034,
  0x2804000000060001948800000c4200000000000000008354102f4001bb80ad934e310140000a009a020100000000007f650705050046147f000000d900000080025a00004141733c46410035,
  0x20820000002200012c0000004010000000000000001e2240102100c09a80dc17b26d00c4000800400201000000005a210d0605020046147f000000000000010001be0a0a3241373034320036,
  0x20820000002200012c0000004210000000000000001e2240102900c8da80dc17f26d02fe001100af0101000000003c210d0605020046147f0000000000000200024b0a0a505f554e52500037,
  0x2314000000200001000000007e4a0000000000000004234ca006208afac0cfd30ea101180005003d0501000000000080534805050046147f000000c10000000401be01012d23462350280038,
  0x2314000000200001000000007e4a0000000000000004234ca04e208afac0cfd34ea10140000a009f0501000000000080534805050046147f000000c100000008024b0101463c5f3c69410039,
  0x22100000001200010000000000020000000000000004724000041402bea48c19063000be00070046050100000000009a121605050546143f000000000098000401be090932463c2d4637003a,
  0x221000000012000140000000002200000000000000047240200c1402bea48c394630060e001300c2050100000000009a121605050546143f0000000000980008024b090950645f506e5a003b,
  0x2110000000020000040000000000000000000000001a024000000040ba009c133260007c0006003c4101000000005a21060b02020346147f000000000000004001ff0a0a28285a283228003c,
  0x2110000000020000040000004000000000000000001e2240200000c0ba00de13326000c8000a00874101000000003c21060b02020346147f000000dd0000008002780a0a32325a414141003d,
  0x2110000000020000040000004000000000000000001e224ca00a00c8fa40de1372e0021c000d00e14101000000000021060b02020346147f000000dd00000030032d010a5a46465f555a003e,
  0x6ce000000826000120190000701000000000000000000a7011204194bb01b41f8e2c00c30009003e0501000000007862271c08080346143f000000f80000010001c80d0d37695a0f1419003f,
  0x6ce000000826000120190000701000000000000000000a7011204194bb01b41f8e2c0235000d008c4501000000000062271c08080346143f000000f80000020002640d0d4678691e23280040,
  0x6ce000000826000120190000701000000000000000000a701128419cbb01b41fce2c01e0000f00dd0501000000000062271c08080346143f000000f80000030003320d0d5587782d32370041,
  0x20100000002600000100000072080000000000000004224ca0060488fa64ce5386a000c30008003d0701000000005a50633e08080346143f000000000000000401b401012323233250460042,
  0x20100000002600000100000072080000000000000004224ca0060488fa64ce5386a002c1000f008e4701000000003c50633e08080346143f0000000000000008025a01013c322d4664500043,
  0x20100000002600000100000072080000000000000004224ca04e0488fa64ce53c6a00514001000e34701000000000050633e08080346143f000000000000000c032d010155413750825a0044,
  0x20030000040f00000000000000400000000000000000826004200010ba098431072000280007003c0301000000005a52222207070346147f000000000000000401ff030b1e4628234b320045,
  0x20030000040f00000000000000410000000000000000826004200010ba09843107200040000a00890301000000003c52222207070346147f00000000000000080278030b2d5537325a410046,
  0x20030000040f00000000000000410000000000000000826004280010ba0984314720009b001100d80301000000000052222207070346147f000000000000000c032d030b3c64464169500047,
  0x2000000004070000040100000000000000000000001a824804020040ba0a841b336001c700090043010100000000002c401d09090546147f000000f50000040001be030a6432462328280048,
  0x2000000004070000040100000000000000000000001a8248040a0040ba0a841b73600226001000b4010100000000002c401d09090546147f000000f500000800023c030a7850644146500049,
  0x300000000002000001460000300000000000000000042240a25084809a74ce51062000c80004003c0501000000005a0805450a0a03460f7f000000e50000001001ff04051e1e14645028004a,
  0x300000000002000001460000300000000000000000042240a25084809a74ce510620041a000a00890501000000003c0805450a0a03460f7f000000e500000020027804052d2d23735f37004b,
  0x300000000002000001460000302000000000000000042240a25884889a74ce5146300bb8000e00da050100000000000805450a0a03460f7f000000e500000030032d040541372d826e50004c,
  0x200000000012000100000000030000000000000000041240000014039e2484310620012c000a00520201000000007831123205050046147f000000bf0000004001be090941415a375532004d,
  0x200000000012000100000000038000000000000000041248000814039e248431462003b6001100af0201000000000031123205050046147f000000bf00000080023c0909505069466441004e,
  0x64a80000000200012c030000001000000000000000160a70312004419a24be1fb66c0168000c003f0901000000003c90140c02010046147f000001170000000101be0d0a28280f41415a004f,
  0x64a80000080200012c4b0000401000000000000000162a70312804c99aa4fe1ff66c0311001000ac0901000000003c90140c02010046147f000000dd00000020024b0d0a50641e6e4b5f0050,
  0x24000000000200000271000000100000000000000000164013a081008a0185938620003c000300410701000000005a94052a0a0a004614ff000000e90000010001be080c375f2d4623190051,
  0x24000000000200000271000000100000000000000000164013a881008a018593c6200258000a00a30701000000003c94052a0a0a004614ff000000e900000200023c080c4678465f3c320052,
  0x2010000011960001008000000802000000000000000183cc14042020ba808411062000960008007b0501000000007880273305040046147f0000010300000004022d02003e3a3c3741340053,
  0x2100000010060000000000000800000000000000000102c400000001ba80841106200188000e003e0501000000005a4d303204040046147f000000f40000000401be020023234b2d55230054,
  0x2100000011060000000000000800000000000000000102c4000a0001bb8084114e200354001200a10501000000003c4d303204040046147f000000f400000008022d02003c3c64466e3c0055,
  0x20000000000200010c0000000090000000000000001a024000000081ba00841b32600384000b004108010000000000735d2f05020046147f000000000000040001be0a0a462d2d372d410056,
  0x20000000000200010c0000000090000000000000001a024040080081ba00841b726004b0001100a608010000000000735d2f05020046147f0000000000000800024b0e0a5f464650465a0057,
  0x20000000060200000000000074000000000000000004024880028480bb6ead930f20012c000900410601000000003c8f3c010b0b0046147f000001190000000101be03033228193250500058,
  0x200000000602000010020000740000000000000000042248800a8488bb6eed934f20012c000c00af0601000000003c8f3c010b0b0046147f0110000001190005024b03036441324b69690059,
  0x200000000002000004400000000000000000000000120240000280009a008413326000280003003d060100000000008e5c4b09090546147f000000590058001001be0a0a192d2864411e005a,
  0x200000000002000004400000001000000000000000120248400a80009b0084137260052d000f00b8060100000000008e5c4b09090546147f0000005900580020023c0e0a2d5546b45f32005b,
  0x68a400000606000014080000780000000000000000000a501002d010bb08b4970f200001000d003e060100000000781a1a1a0b0b0346147f000000000000010001be03072364501e231e005c,
  0x68a400000606000014080000780000000000000000000a581003d090bb08b4970f2000010010008e0601000000005a1a1a1a0b0b0346147f0000000000000200025a030737735f2d322d005d,
  0x68a400000e26000014080000780000000000000000042a58100bd098bb08f5974f200195000f00e1060100000000001a1a1a0b0b0346147f0000000000000300032d03074b826e3c413c005e,
  0x300000000003000140060000002000000000000000042642b25280009b508e510e3008340058004d0701000000003c8505450a0a0046197f0000000000000010012d04052d1e46a02d23005f,
  0x6c6000000820000020090000721000000000000000000a7011200080fb01f41f8e2c0144000a00420201000000005a276c0f08080046147f000000000000040001be0d0d5a2b2a2d303c0060,
  0x6c6000000820000020090000721000000000000000000a7011280088fb01f41fce2c02f4001000a90201000000003c276c0f08080046147f0000000000000800024b0d0d7349434649550061,
  0x20000000000600000540000000000000000000000016a241840000e0ba40cc1332610041000400410001000000005a7d4b3409090046147f000000000000000401e10a0a1919325a691e0062,
  0x20000000000600000540000000000000000000000016a241840808e0ba40cc1372610258000d00a64001000000003c7d4b3409090046147f0000000000000008023c0a0a32324b7382370063],
  [0x20000000000200000029000000100000000000000000124003a08100ab0085938a20006800050042000100000000786a092b0a0a004614ff000000000000004001be0c0c373764321e280064,
  0x20000000000200000029000000100000000000000000124003a88100ab008593ca20029a000c00a8000100000000006a092b0a0a004614ff0000000000000080023c0c0c50508c46323c0065,
  0x60020000040a000000120000084000000000000000040a7014208010ba0994358620001900040041090100000000788b222207070546147f0000000000000010015a0d0b2d3c2850283c0066,
  0x60020000040a000020120000024000000000000000040a7014288010ba099435c62404b0001400b6020100000000008b222207070546147f0000000000000200022d0d0b417d37555f5f0067,
  0x3100000000060001044400003a2000000000000000042240a40404a1baf4ce5136200041000400400501000000005a041f4501010046147f000001020000001001be04043228235f32320068,
  0x3300000000060001044400003a2000000000000000042240a44c04a9baf4ce51762001c2000a00950501000000003c041f4501010046147f0000010200000020024b040450322d6e503c0069,
  0x20100000002600000100000003020000000000000004224ca0440088fa40c61306a001f2000f009f050100000000005478070808004619000000000000000008022d01016e2357357832006a,
  0x201000000822000000000000720200000000000000042244a0440088fa40c61306a001f6000e009f050100000000002759330808004619000000000000000800022d01016e234c4f6932006b,
  0x20000000000700012c00000070000000000000000006a256b40c0480ba74efb37620028f000c004d0901000000003c0d0c1401010046147f0000011700000002012d00004b3c1e4b375a006c,
  0x20040000020200001000000008000000000000000000024002229400bb2ca5930f20000a000600440601000000005a1a1a1a0b0b0046147f000000e40000001001be03032d3c235f4128006d,
  0x200400000202000010000000080000000000000000000240022a9400bb2ca5934f20005f000c00ac0601000000003c1a1a1a0b0b0046147f000000e400000020023c030346553c785a41006e,
  0x31040000000200014d040000088000000000000000042248a4520400ba748f933630047e000a00450701000000005a78451f05010546147f0000000000000010017805041e1e195f5550006f,
  0x33040000000200014d06000078800000000000000006a24aa45b0488ba74cfd3763004b0001300aa0701000000003c78451f05010546147f0000000000000008023c05042d2d287882690070,
  0x7d10000008420001a4900000700200000000000000043274b12c05819a74f7bbf668015a000b018b0901000000005a83201e0606048c28fe000000e701000002021e00006923320505fa0071,
  0x21020000060f00000000000000400000000000000000a26014280010ba0984314620015e000a00570101000000005a90662207070046147f0000000000000010012d0b0b28643c7337410072,
  0x23140000080200010c0000007a020000000000000006a244a00d0488baf4efbb76700320001600ac050100000000962771300101004614fe0000000000000002022d000050285a505f690073,
  0x2200000000020000440000000110000000000000001a0640000000409a008413326000500004003b010100000000000661210e020046147f000000eb0000010001e10a0a19463c46281e0074,
  0x2200000000020000440000000110000000000000001a0640000800409a008413726000fa000c009a010100000000000661260e020046147f000000eb00000110024b0a0a2d5f555f41370075,
  0x20000000000600000c0000000190000000000000001a0248000000409a00841332600096000600400001000000005a1f29210c0c0046147f000000000000000401e10a0a32233f3c432d0076,
  0x20000000000600000c0000000190000000000000001a0248000800409a00841372600186000d009e0001000000003c1f29210c0c0046147f0000000000000008023c0a0a504144415c500077,
  0x2400000002020000041100000010000000000000001a0640132000408a019593b26001590008004445010000000000941e230909054614ff0000005b005a004001e10a0a374655372d1e0078,
  0x64a0000002020000041100000010000000000000001a0e70132800408a019597f2640320000b00b606010000000000941e230909054614ff0000005b005a0080023c0d0a556473554b3c0079,
  0x6cf000000822000024490000701200000000000000000a70112a0198bb81f5bfce2c0221000d00a10901000000005a656f2b08080046197f0000000000000800022d0d0d78645a412d28007a,
  0x20000000108600000000000000010000000000000000a3410c080020ba80c41bc6200230000f00640301000000000050654403030046197f0000000000000004012d0206503769506e46007b,
  0x6470000008620000a4010000401200000000000000000a70502a0099bb01f417fa6c0196000e009f00010000000000576c0c0808004619fe0000009900990200022d0d0e5f735f233241007c,
  0x201000000002000102200000721a0000000000000004324001a80188fa00d593c220012c000b00ac4201000000007848090908080046193f0000000000000080022d0c0c555f69395341007d,
  0x201000000012000100000000320a000000000000000422400008148afe24d411462001bd000d00ad0001000000005a48313108080046193f0000000000000200022d090955645d395f41007e,
  0x30000000000700000140000000010000000000000004a241ac4800a8ba40ce5346a00226000f00af0501000000000099683403030546197f0000000000000008022d0606463755647d41007f,
  0x231400000022000124000000082000000000000000063244a04e04009a7487b376200374000e00ac0501000000005a7d53160505054614000000000000000044022d000046286e5f644b0080,
  0x10000000000000000000000000000000000000000000064000900280001000000005a9b21210e0c0546057f000000000000004001ff0a0a140f50370a140081,
  0x22040000000200015c0000000920000000000000001e2242214a04409b3487937a70092e004100bd0101000000003c9916160e0c0546057f0000000000000008022d020a643c514f7d5f0082,
  0x2200000000420001ec02000000b0000000000000001e2250600800019a00959b72700898001900bb0101000000003c5d4b0b02010546287f0000000000000002022d0e0a5f553c5055820083,
  0x28000300650601000000005a9607070d0d004614ff0000010101120001022300003030303030300084,
  0x201000000042000180800000000200000000000000000244000400019a00ac130620004100030041050100000000006b5b3205050046231f0000000000000400012d0000412d373237370085,
  0x20100000004200018c8000000012000000000000001e2244000c00419a00ac1376700122000a00b8010100000000005d0b0b05050046231f0000000000000002022d0a0a5f6e413c41820086,
  0x201000000042000180a0000000120000000000000004324401ac01019a00ad93c63000f5000800b8020100000000005f0a0a05050046231f0000000000000080022d0c0c5f6e823c41410087,
  0x201000000052000181800000000200000000000000042244000c14039e24ac13463000fa000900b8000100000000003e121205050046231f0000000000000008022d09096e5f413c82410088,
  0x24a000000202000126b90000001000000000000000000a5011280100aa80b5b37624016d0008004f090100000000009458240a0a004614ff0000000000000100012d00004b5528463c410089,
  0x3000000000070000044400000000000000000000001a224082100040ba5084533260004b0004004701010000000000854b21090200461e1f0000000000000010012d0a05375a23642823008a,
  0x3000000000070000044400000000000000000000001a224082580040ba5084537260015e000a00ad01010000000000854b21090200461e1f0000000000000020022d0a054673377d3c46008b,
  0x3000000004060000044400000000000000000000000a224080100040ba508c53326100730005004705010000000000850421090200461e1f0000000000000010012d0a052d37375a501e008c,
  0x30000000040600000d4400000200000000000000001aa24184580040bad0cc5372610195000d00ad05010000000000850421090200461e1f0000000000000008022d0a0546415069733c008d,
  0x300000001192000148040000002000000000000000052240a05a0600bbf486534e33024e001200b4060100000000007f2e4504040546231f0000000000000080022d02054b3c82416950008e,
  0x2608000000020000a5820000746200000000000000063244a00c04889a74f7f3762011f8001500bd04010000000000522f1101010546281f000000ea00ea0002021900006e411e416ea0008f,
  0x2000000011820000040000000010000000000000000123c0400802008a9184137670022a0011010501010000000000512e2e0f0f052350ff0000000000000c000303020e7d5f5564555a0090,
  0x2000000011920000000000000010000000000000000133c001a803008a908593c630020e00100105020100000000001f2e2e0f0f052350ff00000000000003000303020c5a7d64555a5a0091,
  0x2000000011920000000000000000000000000000000123c0000816028eb4843b463002580014010502010000000000312e2e0f0f052350ff000000000000030003030209557d5a5a645a0092,
  0x22000000000300014c0000000000000000400000000a0242010004009a24859bf66000210012003c010100000000783f3d3d0e020523287f000000eb00000004012d0f0f3232322d40290093,
  0x22000000000300014c0000000000000000400000000a0242010004009a24859bf66000a5002800930101000000005a3f3d3d0e020523287f000000eb00000008022d0f0f46464641543d0094,
  0x22000000109300014d0000007020000000400000001fa242a14806889af4c79bf67308340016010e050100000000008827270e020523287f000000eb0000000c032d020f6464505f865b0095,
  0x6ce00000082200012c190000721000000000000000042a78b1685598cbf5f7bffeec04c400140132060100000000007f2e2e0f0f050078ff000000000000030003030d0d5a9a825a6e6a0096,
  0x7fff00001fff0001ffff00007fff000000000000001fffffffffffffffffffffffff00280004010e090100000000001c1c1c0f0f036478ff0000009d009d0003032d0d0d6464646464640097,
  0x20020000040a000100010000004000000001000000008260042000119a01843986200040000900400301000000000066414107010346141f0000000000000400012d0b0b41312d41312d0098,
  0x20020000040a00010001000000400000000100000004a260042000119a0184398620009e000c008e0301000000000066414107010346141f0000000000000410022d0b0b503f3c503e3c0099,
  0x22020000040a00010001000000400000000900000004a262242800119a018639c62003ed001200ec0301000000000066414107010346141f0000000000000810032d0b0b645350645250009a,
  0x200000000012000000000000000200000002000000009240000014029ea48c110620004f0005003e0201000000000012424205050346141f0000000000000040012d0909323c412b3427009b,
  0x20000000001200000000000000020000000200000004b240000014029ea4cc11063000be0009008e0201000000000012424205050346141f0000000000000140022d09094150503a403a009c,
  0x20000000001200000000000032020000001200000004b240a209148a9ee4ce314630031b001100f00201000000000012424205050346141f0000000000000300032d0909556d644e544e009d,
  0x20040000000200010d0200004a00000000040000001a8240840100c09ac0cc133263005f0006003f010100000000007d434302010346141f0000000000000004012d0a0a302c2b404132009e,
  0x20040000000200010d0200004a00000000040000001ea240840100c09ac0cc13327300fa000b008e410100000000007d434302010346141f0000000000000014022d0a0a3f3b3a505041009f,
  0x22040000000200014d0200004a00000000240000001ea242a40900c89ac0ce1372730378001700ef010100000000007d434302010346141f0000000000000018032d0a0a534f4e64695500a0,
  0x20300000000600018880000078060000000000000002836400050181ba04ecb31621003c0008002b05010000000078773332050500460f7f0000009b0000000401ff00002d2314222e2300a1,
  0x20300000000600018880000078060000000000000006a364000d0189ba04edb376210145001200910501000000005a773332050500460f7f0000009e009b0080025a0000372d5a404c5500a2,
  0x2400000011900000a00100000800000000000000000102d410000001ba81b413062000d4000700340501000000005a6e330f040400460f7f000000000000000101ff02003824321e1e3c00a3,
  0x2400000011900000a00100000800000000000000000102d410080001ba81b413462001980010009b0501000000003c6e330f040400460f7f0000000000000002025a0200604c4632326400a4,
  0x200000001c860000000000005801000000000000000003400c202080ba81cc398620006c000a0035000100000000009b3044030304460f7f000000000000040001ff02065028371e142800a5,
  0x200000001c860000000000005801000000000000000423400c282088ba81cc39c6200164000e008900010000000000593044030304460f7f0000000000000800025a02066e375532233700a6,
  0x20000000040000000208000001110000000000000000024908200000ba089c31072100550005003203010000000000610f44030304460f7f000000000000000401ff030628281e283c2800a7,
  0x20000000040000000208000001110000000000000000024908280000ba089c314721014f000b008900010000000000610f44030304460f7f0000000000000008025a03063c3c28465a4600a8,
  0x2800000015920000300000000804000000000000000103c1000a2000bb88a4134f2002ee001200f106010000000000972727040400460f7f00000000000000c0035a0203504682505a5500a9,
  0x2000000000420000040000000110000000000000001a124001a001409a0085933260007800050042010100000000000b230a0c0c0546147f000000e30000000101be0c0a38384326264b00aa,
  0x20000000004200000c0000000110000000000000001a124001a801409a008593726000e1000c00a1010100000000000b230a0c0c0546147f000000e300000002024b0c0a4c4c433a3a7d00ab,
  0x20100000000200010020000008120000000000000000126001a001819a0085938220001400030029020100000000001f09090f0f00460a7f000000000000004001be0c0c23233c0f281400ac,
  0x25b8000000220001a4910000081200000000000000000274112004819a25bc3f8624001e0003002c490100000000008462380f0f048c0abf02470051009a040001960000372d0f1c193200ad,
  0x251000000262000084910000090200000000000000001274112004819a25bc3b8620000a0003002a490100000000008438380f0f04460abf000000000000000101aa000014280f0f1e5a00ae,
  0x2128000000420000a0810000081200000000000000002274112004819a25b43f8624000f00030031080100000000006920370f0f04460a1f000000000000040001be000041281441142300af,
  0x2128000018d20000a0810000001200000000000000012274112c04819aa5f43fc62400200006008e08010000000000692037060404460a1f0000000000000800024b020069502855283700b0,
  0x606000001692000020010000001000000000000000000bf011200004ba81b437862c001400020040030100000000009c301c04040046147f000000000000010001be020d2d46462d322800b1,
  0x606000001792000020090000001000000000000000010bf011280004ba81b437c62c0096000f00a5030100000000009c301c04040046147f0000000000000140024b020d465f5f464b4100b2,
  0x200800000042000100200000001000000000000000001240012001019a00859b8220004e000600380801000000003c39090905010346147f000000000000010001eb0c0c2d412328283700b3,
  0x20080000004200010020000030100000000000000004324001a001819a00c59b82200085000800800901000000000039090905010346147f000000000000020002780c0c3c502d37374600b4,
  0x22080000004200010020000030100000000000000004324021a801899a00c59bc2200267000e00e10201000000000039090905010346147f0000000000000300032d0c0c5a73374b4b5a00b5,
  0x200b00000c0a000000000000084000000000000000008260042800909a0884394720003a000400d80301000000000083222207070346147f0000000000000c00032d0b0b645a3255504b00b6,
  0x20100000000600018d0000004102000000000000001e2264000000c09a00cc13b2600055000400580101000000003c9d252f060204460a7f000000000000000202be0a0a32142832144600b7,
  0x20100000000600018d0000004102000000000000001e2264200800c89a00cc13f260011d000800b9010100000000009d252f060204460a7f0000000000000003034b0a0a50323250326400b8,
  0x3018000000220000000e0000720200000000000000042240b0508080bb50ce510e28017c000c0090050100000000009b45050a0a0046147f000000000000002002410505411e1e73644600b9,
  0x2110000000020000840000004100000000000000001e2240200a00c9ba00de1372600153000b00e14301000000000002060b02020346147f000000dd00000c00032d0a0a645a464b4b5a00ba,
  0x20120000040a000000000000014000000000000000000360142020109a81843106200005000400320901000000005a97662207060346147f000000000000040001ff020b37233228232300bb,
  0x20120000040a000000000000014000000000000000000360142020109a8184310620000a000600770301000000005a97662207060346147f00000000000000800278020b412d50322d3700bc,
  0x20120000040a000000000000014000000000000000000360142820109a8184314620001e000800cb0101000000007897662207060346147f00000000000000c0032d020b55376e46374b00bd,
  0x2804000000260001008800007f420000000000000004a37401072080fa80edb30e21007300080048060100000000005c353205050446147f0000000000000040012d000037285537463700be,
  0x211a0000040a000000040000084000000000000000008260042000109a08843986200012000300240201000000005a305e2207070346147f000000000000010001eb0b0b1e1e1e1e1e1e00bf,
  0x211a0000040a000000040000084000000000000000008260042800109a088439c62000550008009502010000000000305e2207070346147f000000000000020002780b0b55691e374b4b00c0,
  0x20000000148200000000000008110000000000000000035000200000ba80b4310620017c000c004e00010000000078770e0303030046147f0000010900000040014b02062d4b5f2d414100c1,
  0x20080000000200010c0400004000000000000000001a2240202000409a1a8e1b326000550004002a010100000000786d0b0605020046147f000000000000000101ff040a19190f2d2d3700c2,
  0x20080000000200010c0400004000000000000000001e2240a06800c8ba5ace1b726002ee000e00970101000000003c6d0b0605020046147f0000000000000002025a040a41412355555f00c3,
  0x6070000000420001a0810000001200000000000000008a74102c00019a01bc17c62c0109000900b8060100000000009c1c1c05050046231f0000000000000200022d0d0d5f826e3c414100c4,
  0x28940000004200019088000000020000000000000000c254102e00019b00bc134e20010e000a00b804010000000000271c1c05050023231f0000000000000800022d1010823c416e415f00c5,
  0x2804000011900000140800000800000000000000000142d011064800bb80b4130e28001500050051040100000000789e690f04040323147f0000000000000040011e02102a555b2a553c00c6,
  0x64a80000080200012c4b0000401000000000000000162a7231280cc99a24fe1ff66c031b001400ac0901000000000090140c02010046147f000000dd00000c0002460d0a6e641e504b5f00c7],
  [0x68e400000242000094090000080000000000000000000a5011225101bb80b5970e28000a00070057070100000000781a1a1a0b0b0423197f0000000000000400012d07075555553c3c3c00c8,
  0x3200050076441c00000000001a1a1a0f0f004628ff000000000000010402e10d0d30483030483000c9,
  0x11d000d008e0101000000003c8c17170b0b0046147f0000000000000002022d0d0d3a21213a21be00ca,
  0x6420000000020001a0190000081000000000000000042a7431240111ba01b797862c019f000f009f0201000000003c9d302705050046147f0000009c00000200023c0d00415a5541504600cb,
  0x300000000602000000500000008100000000000000042240aa0280009a518e31872000480006003a070100000000008e050503030046147f000000000000001001be060623230f5a413200cc,
  0x300000000602000000720000009100000000000000042640aa9a80009a518e31c72004ea000c00a3060100000000008e050503030046147f0000000000000020024b08063c3c288c5a4b00cd,
  0x310400001203000128810000008000000000000000043258b3040500ba64afb33628008c000f0091020100000000009b322005050046147f000000000000000102be000041412d46466400ce,
  0x30000000108600011804000000010000000000000004a349ac5220a0bbd8ce130f210288000b00560601000000000011083403030346147f0000000000000010013c0204412355694b4100cf,
  0x30000000000300015826000000200000000000000004a642b25a80009b508e514e300fa0005c00b3070100000000007d05450a0a0046197f000000e9000000200219040841371ec8554b00d0,
  0x20000000004200008180000072060000000000000004724421060482bb2defb30eb0004e0006003c090100000000009b32160605044614bf000000000000000401be000028281e32503c00d1,
  0x220000000042000181800000720600000000000000047244a14e048abb6defb34eb001e7000e009e060100000000009b5f160605044614bf0000000000000008024b00003c3c2d4b785a00d2,
  0x20000000020200000c0000000110000000000000001a0248030280409a0aa4133b60002700050056070100000000001621260c0c0046147f000000f500000004012d030a3737554b5f4100d3,
  0x20000000108600000140000000210000000000000004a7410c0820a0ba90c41bc720049c001200af0001000000000087654403030046197f00000000000000080219080650374164824600d4,
  0x301900000007000000040000000100000000000000042240aa7000009a5a8e59072000cd000600b10201000000003c7e520503030346147f0000002b002b041002be0506e60a05e60a1400d5,
  0x20100000000600000040000002010000000000000004a244ac4d00a8bac0ce5347a0021c000f00af01010000000000993e4403030546197f0000000000000008022d01065f28554b7d5000d6,
  0x28040000000600011408000042000000000000000006e259140740a0fb81ec133e69011800090056440100000000007c332705050323147f000000d9011e0040013c0e104b2373375f3700d7,
  0x20000000000200008180000074420000000000000004a244a4070080bbc0ce130eb100580006004245010000000000765f3505050046147f00000000000000040178000032322832503c00d8,
  0x2000000000020000818000007e420000000000000004a244a44f0088bbc0ce534eb104ea001200af050100000000007f5f3e05050046147f0000000000000008023c00004b4b374b825a00d9,
  0x200800000212000000440000000000000000000000002240800014029e6584118620015e00070032000100000000008531280b0b0046147f000000000000010001be090928461428282800da,
  0x300800000212000000440000000000000000000000042240a25894029e758671c620022600080090000100000000008531280b0b0046147f0000000000000020024b050950501e78323200db,
  0x310000000002000005040000000000000000000000042240a00000009a518e13b270004100040032050100000000002f510c05050546147f000000000000000401e1040e1e1e3228323200dc,
  0x310000000002000005040000000000000000000000042240a04800009a518e13f270022e000b009e050100000000002f510c05050546147f0000000000000005024b040e3c3c3250646400dd,
  0x310000000002000004450000000000000000000000062240a05080409a51be1bb66800320006008509010000000000901e370902044614bf000000ee00000410023c050a55412355373700de,
  0x2000000000020000040000000550000000000000001a024001000540ba249453762000780006003c070100000000008d61370c020046147f000000000000010001be0a0a23414123412300df,
  0x2000000000030000040000000550000000000000001a0640010a0550ba2e94537620011d000900a8000100000000008d61150c020046147f0000000000000104024b0a0a4b692d4b694b00e0,
  0x2400000001000000040000004550000000000000000102c040000080ba80c413326000a000090074000100000000000f374805020446147f0000000000000040022d020e2d414b2d372d00e1,
  0x20100000008200000c0000000570000000000000001a0240a00820409ac0861372600898001500a306010000000000290b2102020546197f00000000000008000219020a8c504646284100e2,
  0x30000000118200001440000000200000000000000001a6c184220200bbd084110e3001f9001100a30701000000000085053304040546197f0000000000000020021902084628468c504100e3,
  0x28040000003200019008000008040000000000000000625000065402bf2ca4310e30006c00060042040100000000787f123005050523147f0000000000000100017809103250411e3c2d00e4,
  0x280400000032000190080000080400000000000000046250000e5402bf2ca4314e30015e000e00af0401000000005a7f123005050523147f0000000000000200022d0910506e5f325a4b00e5,
  0x2200000000020000440000000130000000400000001a0640000808409a008413726005f0001200f3010100000000000661210e020046147f000000eb00000504032d0f0a5f5f555f5f4b00e6,
  0x310000000006000181840000044000000000000000042240a00000019a5086110630014f000500420101000000000008353505050046147f000000b900000001017804042828283c3c5a00e7,
  0x310000000006000181c60000054000000000000000042248a25800019a508611463004b0000b00af0701000000000008050505050046147f000000b900000014023c04043c3c3278785a00e8,
  0x24a000000202000126b90000001000000000000000000a5011280100aa80b5b376240145000600b4000100000000009458240a0a004614ff0000000000000200022d00005f693c5a505500e9,
  0x604400000022000120900000091000000000000000001a54312c0110ba01b7b3863c02c8000e00a30501000000003c9d771605050546147f0000000000000004022d00004155553e5f4900ea,
  0x244000c00580801000000003c8d651405050446147f0000000000000040022d00002d144b23143700eb,
  0x2010000000220000000000000a0200000000000000042244a0040000fa00c61306a000d20007002a0601000000000048503e0f0f004619000000000000000004014b010123232323232300ec,
  0x211000000022000000000000028200000000000000042244a2440000fa90ce1306a001e0000e009f050100000000005065160808004619000000000000000800022d01016e23465f5f3200ed,
  0x647000000062000024010000481200000000000000000a7050220081ba01b413b26c003c0004003d090100000000005d6c0c0f0f004619fe0000009900990100012d0d0e4155410f1e2d00ee,
  0x2010000000020000022000007a1a0000000000000000324001a00180ba00d593822000eb00060048420100000000004809090f0f0046193f0000000000000040012d0c0c37415f253f2d00ef,
  0x201000000012000100000000380a0000000000000000224000001482be24d411062000d600070049400100000000004831310f0f0046193f0000000000000040012d0909374653254b2d00f0,
  0x301800000042000124020000702000000000000000062244b30c00899a50e7b3762002f3000c00ac090100000000009d712f0505054614fe0000002100210020022d000046286469505f00f1,
  0x7d10000008420001a4920000700200000000000000043274b12c05899a74f7bbf66801d4000f02600901000000000083201e0606048c28fe000000e700e70003031e0000874b370a0aff00f2,
  0x20000000000200010020000000300000000000000004f24031a809008a11ad93c63806f400130105020100000000000a2e2e0f0f052350ff000000000000018003030c0c6473734b555a00f3,
  0x20000000001200010000000000200000000000000004e24030681c028e35ac33463807bc0015010505010000000000122e2e0f0f052350ff0000000000000009030309094b5a6455737300f4,
  0x2000000000820001040000000030000000000000001ae240300808408a11ac137678074e00140105010100000000000b2e2e0f0f052350ff000000000000081003030a0a735a55734b6400f5,
  0x320400000002000111440000082000000000000000006240a05600009b50ce534e2002d00006003c0301000000005a083e3e01010523287f0000000000000004012d0405322d2932403200f6,
  0x320400000002000111440000082000000000000000006240a05600009b50ce534e2005f0000c0090070100000000003d3d3d01010523287f0000000000000008022d040546413346544600f7,
  0x3204000000020001594e00007a200000000000000006e242a15f04889bf4cfd37e3307e40014010e030100000000007f2d2d01010523287f000000000000000c032d1005645f3d6e866400f8,
  0x60a0000015820001ec0400000030000000000000001f2252312803018a91b79ff67c08700034013208010000000000882e2e0f0f050078ff0000000000000c000303020d9a5a6e825a6a00f9,
  0x2000000015920000a00400000030000000000000000522d0312817038eb5b7bbc63807c60026013200010000000000902e2e0f0f050078ff0000002c002c0c00030302099a6e5a5a826a00fa,
  0x70f20000044a000020850000085000000000000000008b70152801918a91b43bc62800320006010e030100000000001e1e1e0f0f036478ff0000009d009d0003032d0b0d64646464646400fb,
  0x210200000c0a00010000000012400000000100000004a260842020909ac0cc39062000320005003e030100000000005441410e010346141f0000000000000040012d0b0b374146232d2800fc,
  0x210200000c0a00010000000012400000000100000004a261842020b0dac0cc39062000d80009008e030100000000005441410e010346141f0000000000000080022d0b0b41555f2d413200fd,
  0x230200000c0a00014000000012400000000900000004a261a42820b8dac0ce394633020a001100ef030100000000005441410e010346141f00000000000000c0032d0b0b55697841554600fe,
  0x20100000001200000080000003000000000200000004a240840114039ee48c11062100190004003e0001000000000003424205050346141f0000000000000100012d090932462d283c2d00ff,
  0x20100000001200000080000033080000000200000004a24c8401148bdee4cc1106a100c30009008e0001000000000003424205050346141f0000000000000104022d01093c55373c553c0100,
  0x20100000003600000180000033080000001200000004a24ca449348bdee4ce3146b10208001300ef0001000000000003424205050346141f000000000000000c032d0109466e504678500101,
  0x21000000000200010d0400000200000000040000001e2240800000419a428c133260004c0004003e0101000000000006434302010346141f0000000000000004012d0a0a3232283246320102,
  0x31000000000200010d0400004200000000040000001e2240a00000c19a42ce13326001180007008e0101000000000006434302010346141f0000000000000008022d040a463c324655460103,
  0x33000000000200010d0400004200000000240000001e2240a04800c99a42ce1372700333000f00f10101000000000006434302010346141f000000000000000c032d040a5a553c5a6e640104,
  0x28040000000200019008000008060000000000000000624000064400bb00ac130e3000880005002c070100000000009b5f32050500460f7f000000970000000401ff10101e1e232337230105,
  0x280400000002000190080000080600000000000000046240000e4400bb00ac134e300172000a009307010000000000995f16050500460f7f0000009700000008027f10103c3c46465a460106,
  0x20300000000200018480000004460000000000000002a26401040181ba00ad93362100af00040030050100000000785f5235050500460f7f0000009b0000004001ff0000291e3c291e260107,
  0x20300000000200018480000004460000000000000006a264010d0181ba00ad9376310145000500930801000000005a5f5235050500460f7f0000009e009b0080025a00003d32643d464e0108,
  0x20000020000000001000000000000000000000000000000000000000000240003002700010000000000321313030300460f7f000000000000000101ff06061e1414232d2d0109,
  0x240000000010000000000000000000000000000000000000000006400060048080100000000003d3d3d030300460f7f00000000000000200278060619190f372332010a,
  0x20000000148200000200000000110000000000000000034008282010ba80b4394720011c000a00ad020100000000004f4444030300460f7f0000012700000300032d0206325a4132463c010b,
  0x240000000010000000000000000000000000000000000000000007300070029060100000000003d3d3d030300460f7f00000000000000200178060619190f372332010c,
  0x20000000148200000200000000110000000000000000034008282010ba88b431c720013c000c0087030100000000000e1313030300460f7f0000012700000c00022d03065a324146323c010d,
  0x20000000040a00002400000008400000000000000002026004200051ba0084333660001a0005002c0301000000005a142c21070203460f7f000000000000040001ff0b0a32281e1e1e28010e,
  0x200000000c0a0000a40000007840000000000000001e2260042000d1ba00c43336610145000c00770301000000003c142c21070203460f7f000000000000080002780b0a463c3232323c010f,
  0x200000000c0a0000a40000007840000000000000001e2260042800d9ba00c43376610226000f00d803010000000000142c21070203460f7f0000000000000c00032d0b0a645a464646500110,
  0x20060000040a000000080000004000000000000000002260042480309a00ac31062000280005002c0501000000005a7c3022070503460f7f000000000000001001ff0b0b1e1e1e3228280111,
  0x20060000040a00001008000002400000000000000004e2609426c0b0fb40ec3146200118000a00770501000000003c7c3022070503460f7f00000000000000080278100b283c3c2846460112,
  0x20060000048e00001408000003400000000000000004e261942ec0b8fbc0ec3146200254000d00d8050100000000007c3022070503460f7f000000000000000c032d100b3c5a503c645a0113,
  0x2100000010920000000000000000000000000000000103c400000001ba808413062000170003003601010000000000713e3e040403460f7f000000c30000004001c802001e1e551e37280114,
  0x2100000011920000000000000000000000000000000103c400080001ba808413462000c60007009701010000000000713e3e040403460f7f000000c300000080022d020032327d3c553c0115,
  0x2000000010860000040000000800000000000000000103c000000041ba8084133260005f00060036080100000000002c333304020046147f000000000000004001be020a1e37551e1e280116,
  0x2000000011860000040000000c40000000000000000303c0000a02c1ba80841372600118000c0097020100000000002c333304020046147f0000000000000020022d020a46554164323c0117,
  0x6cf0000002020000a4010000701000000000000000000a7011201185bb01b49f8e2c004200040028080100000000008c241c0b0b0523147f000000000000010001eb0d0d232d2819191c0118,
  0x6cf0000002020000a4010000701000000000000000000a7011201185bb01b49f8e2c00ca00080061080100000000008c241c0b0b0523147f000000000000020002780d0d3741322323260119,
  0x6cf0000002420000a4010000701000000000000000000a701128119dbb01b49fce2c01e4001000e9080100000000008c241c0b0b0523147f0000000000000300032d0d0d737d50414144011a,
  0x20000000040200000400000000110000000000000000024018200040ba00a4333620001100050036010100000000782c2121030200460f7f000000000000004001c80a06343241201e28011b,
  0x20000000148200000400000000110000000000000000034018280050ba80a43376200024000800910101000000005a7f1616030200460f7f000000de00000500024b020652503c3e3c46011c,
  0x281200000c0a000000000000004000000000000000000260042000309a0884390720002d0004003b050100000000785f5a1b070602460f7f000000be0000000101ff0b0b3c28233c283c011d,
  0x281200000c0a00010100000010400000000000000004a264846c00b8da48c43947a00188000c00a10301000000005a655a1b070602460f7f000000be00000008025a010b3c3c4650823c011e,
  0x20080000000200000400000074020000000000000004a244800504809ae4e5b336a100f00008003805010000000000363636050505460f7f000000000000000101ff000023231e3c3c3c011f,
  0x2008000000000000040000007e020000000000000004a244a0050488dae4e7b33eb101d1000e009a0801000000005a484848050505460f7f00000000000000800278000037375a5050500120,
  0x20080000000200000402000076020000000000000004a244a00d0c88dae4e7f37eb10519001400fc05010000000000363636050505460f7f0000000000000003032d0000415f6464a0960121,
  0x200400000402000000000000000100000000000000008241082000208a90ac31062100370005003507010000000000320e0e030301460f7f000000000000001001ff04061e1e285a2d1f0122,
  0x2004000014020000000000000801000000000000000083410c280020ba90ac3146210078000800a002010000000000970303030301460f7f0000000000000080027802063232a02d5a3d0123,
  0x20240000040200000000000000010000000000000000825108291020aa90ac354621000c00080053050100000000001919190a0a01460fff0000000000000002022d07061e1e282d5a010124,
  0x2100000000020000a4000000780000000000000000000244000404819a24a433363000a300060030090100000000009b2b2b05010346147f000000960000000101be000017331c1733400125,
  0x2100000000020000a40000007a0000000000000000042244a00404839b64e6733e300195000a007e01010000000000712b2b05010346147f0000009600000002027800002b47302b47540126,
  0x2300000000020000a40000007a0000000000000000062244a00c048b9b64e6737e300348000f00d801010000000000712b2b05010346147f0000009600000003032d00003f5b443f5b680127,
  0x20100000002600000100000072000000000000000006224ca0040088da40ce5306a00360000a002f020100000000007d3e2f08080246143f000000000000000101b401011e14191e3c480128,
  0x20100000002600000100000072200000000000000006224ca04e0088da40ce5346a009ea001700a6050100000000007d3e2f08080246143f000000dd0000000202c801013c28323c78900129,
  0x2010000000060001840000000902000000000000000a0244000000409a008413b260001400020026010100000000789d252f0f0f04460abf000000000000000101960000281414281432012a,
  0x300000000202000000770000700000000000000000042240a1d080009b5087d10e2003ca000a004b0701000000003c9f2a050a0a0046147f000000ee0000001001ff05055a2d1e872d1e012b],
  [0x2010000000420001a4800000080200000000000000001274112601019a00adbb3628006e0006003409010000000000936038060504460fbf000000000097004001ff00002323322d2d32012c,
  0x2010000000420001a4800000080200000000000000043274112e01019a00adbb76280146000b008506010000000000936038060504460fbf0000000000970041023c0000373746414146012d,
  0x28a40000002600003419000072100000000000000000e25810275480fbc0fc170e29006e00050085060100000000009e643308080323197f0000000000000014022d07104141324b4b32012e,
  0x380000000206000014e80000502400000000000000042660944a45a89b7ce4335e20007300060085040100000000007d163406050446147f000000b800000014022d0808373732555532012f,
  0x31040000000200010164000008200000000000000004a240a01100009ad08e1306310258000400420701000000005a86450501010523237f000000ee0000001001b4050828281e6446320130,
  0x31040000000200010164000008200000000000000004a240a05100009ad08e13063104b0000900970701000000003c86450501010523237f000000ee00000020025a05083232288c5a3c0131,
  0x33040000000200015d6600007a200000000000000006a642a15b04889af4cff37e330e10001500ef0701000000000086450501010523237f000000ee00000030032d05083c3c32b46e460132,
  0x243000000a2200002011000072100000000000000004227c90240088da41f41786ac0070000600380101000000005a8c4a4a08080046147f000000000000004001b40d0137283c37281e0133,
  0x243000000a2200002011000072100000000000000004227c902c0098da41f417c6ac013b000d00900001000000003c8c4a4a08080046147f0000000000000080025a0d014b3c504b3c3c0134,
  0x20000000000200010020000008100000000000000004524001a00100ba048593823000980006003b030100000000783a1f0905050546147f000000000000004001780c0c284141282d280135,
  0x20000000000200010020000008100000000000000004524001a80102ba048593c2300192000f00a60201000000005a3a1f0905050546147f0000000000000080022d0c0c3c69693c4b460136,
  0x201000000002000100a0000018100000000000000000126001a001819a0085938220002a0004008e0201000000000039393906060046147f000000000000004002c80c0c4b555f28323c0137,
  0x201000000002000100a0000018100000000000000000126001a001819a0085938220002a0004008e020100000000003a3a3a06060046147f000000000000004002c80c0c554b5f32283c0138,
  0x20300000148200002000000050110000000000000000034019202180ba80e5b3862000b10007008c0701000000005a9e4423080301460f000000000000000040029606064b2f553749410139,
  0x20100000148200002000000050030000000000000000034019202180ba80e5b3862000b10006008c0601000000005a9e6e0c080302460ffe0000000000000040029606064b4955372f41013a,
  0x20020000040a000000000000004200000000000000008268142000109a08a433072000140003008c4301000000003c66261e07060346147f022100f5000002000296030b5064412d3c32013b,
  0x280100000602000000000000744000000000000000042250000080009a0aa433172000670004003c03010000000078523c400b0b0246147f000000590000000101e10303352b28352b46013c,
  0x280100000602000000020000744000000000000000042250200880009a0aa63357200320001100a306010000000000523c400b0b0246147f0000005900000002024b0303534937534964013d,
  0x2004000000020000340000000904000000000000001a424000060040bb0084133a6000d00008003d0001000000005a0318180c0c0523147f000000e20000000401e1100a144141145a2d013e,
  0x2004000000020000340000000904000000000000001e6248200e0040bb4086137a700378001200a1010100000000000318180c0c0523147f000000e200000008023c100a285f5f287846013f,
  0x2000000000020000a40000000100000000000000001e2240200000419a4086133270051400140050010100000000002e0c290c050246287f0000000000000001017d0a0a23463c2346820140,
  0x2000000000020000a40200000120000000000000001e2240200800419a40861372700f8c009100af010100000000002e0c290c050246287f0000000000000002023c0a0a2d5a3c2d5aaa0141,
  0x300800000012000000040000002000000000000000042240a00014039e748e11062000f00007003d0201000000000014560c05050046147f000000980098010001ff04092d4123283c3c0142,
  0x300800000012000000040000002000000000000000042640a05894039e748e3146300898001300a10001000000000053742805050046147f0000009800980104029604094b69284664460143,
  0x300800000012000100440000000000000000000000042240a24894029e6c863146200324000500a50501000000003c4b494905050046147f0000000000000020025a09094655148c55460144,
  0x6c2000000062000124010000011200000000000000000a7011220100bb01b4178e2c0132000700420401000000000052142f05050446147f00000000009c040001ff0d0d50463c23193c0145,
  0x6c2000000862000124010000711200000000000000000a70312a0198bb01f417ce2c02cb000900a50601000000000052142f05050446147f00000000009c0800023c0d0d6e5a50412d500146,
  0x6c30000008220000a48000007a0200000000000000043a5490240080ba40fc1b06280032000b007e4501000000003c7e4d14080504460f7f000000960000010002ff00003c3c3c3c3c3c0147,
  0x200000000402000001040000001100000000000000042240a80000009a508e31462000960007003a050100000000787d473403030346147f000000ed0000000401ff04042d2d0a2d642d0148,
  0x220000001492000041040000001100000040000000052340a80000009a508e3146200099000b00770301000000005a1a1a1a03030346147f000000000000004402780f043232463246320149,
  0x220000001492000141040000301100000040000000052342a84804009af48e3146230334001400ea030100000000001a1a1a03030346147f0000000000000084032d0f04505064506450014a,
  0x200600000c2a000010020000124000000000000000008268042200909a10c43107200201000400430301000000005a0b080808070323147f000001200000010001be0b0b285523285532014b,
  0x200600000c2a0000110a0000124000000000000000048268042e40989a10c43147200306000d00a60301000000003c0b080808070323147f0000012000000104023c100b3c73373c7346014c,
  0x2200000010d20000c00000000800000000000000000102d010000001ba80843b1620000c0004003e010100000000000d1e1e0e040146147f000000000000040001ff02004b28323c282d014d,
  0x2280000011d20001c00000000800000000400000000122d030080401baa4863b563300ce000b00ac010100000000000d1e1e0e040146147f0000000000000800022d020f6946505a464b014e,
  0x21000000040600010480000072000000000000000004224d840744a8bae4edb33e310193000d00a04801000000005a89111105050146147f000000d900000008025a00003c3c5a3c7349014f,
  0x28010000040700011800000000000000000000000004224b20060000ba0e8e130f20020d001b00a04401000000005a973d3d0e050246147f0000000000000104025a03033c64413c64490150,
  0x745000000202000024150000003000000000000000000a70b278e1008a51b65ff22c0690000a009a0201000000003c1a1a1a0a0a044619ff0247005100000200022d0d05555f464137460151,
  0x749000000212000020550000003000000000000000000a70b278f5028a75b67dc62c0604000c009a0001000000003c1a1a1a0a0a044619ff0247005000000008022d0d05413746555f460152,
  0x20000000000200000c0400000100000000000000001a0240200000409a508613326000130004003a070100000000785d6b0c0c0c0046147f000000000000000101be040a292e3c2b30320153,
  0x20000000000200002c0400000100000000000000001e2240a04800409a508613726000ec000900a4010100000000005d6b0c0c0c0046147f0000000000000002024b040a474c3c494e6e0154,
  0x2104000000060000054000000000000000000000000ea241840200e09ac8cc133a6100730006003e0001000000005a5b4b34090202460f7f000000000000000401cd0a0a23322341502b0155,
  0x2104000000060000154000000000000000000000001ee241840e00e09acacc137a610148000b00a4000100000000005b4b34090202460f7f0000000000000008029b100a375a3755783f0156,
  0x74a000000002000020150000009000000000000000000a70b23081048a51be7f962c00d70005003c050100000000001a1a1a0a0a004614ff000000000000040001ff0d044628373728280157,
  0x74a000000002000020150000009000000000000000042a70b27881048a51be7fd62c0438000f00af040100000000001a1a1a0a0a004614ff0000000000000800025a0d0478464b69463c0158,
  0x30030000060b000000040000004000000000000000000260843000109a588471062000ee000a004706010000000000721515090901461e1f0000012800000400012d0b05573d174d29420159,
  0x30030000060b000000060000004000000000000000042260a47800109a5a86714620025c000f00ad03010000000000721515090901461e1f0000012800000800022d0b056b512b615156015a,
  0x30000000000600000044000000010000000000000000a2418c1000209ad0cc510621007d0007004707010000000000210404090901461e1f0000000000000004012d060532284b325f2d015b,
  0x30000000000600010946000002010000000000000004a641ac5800209ad0ce51462102aa000f00ad07010000000000210404090901461e1f0000000000000008022d060550462d647d4b015c,
  0x2000000000020001440000000000000000000000001a0240000000409a008413b260004a00060028050100000000005b21210e020146147f000000000000004001ff0a0a370a50140f14015d,
  0x20000000000300014c0100000020000000000000001a0242300800409a00841bf2600654003e00bd09010000000000383f3f0e020146147f0000000000000800023c0a0a7d64514f3c5f015e,
  0x20000000008200000480000000000000000000000000024411240450ba34a5b336600008000300930804001b02b9003b3b3b0b060046197f000000f300f30001022d0000464646464646015f,
  0x7ca80000082700010c89000072000000000000000004aa6491250580bae4edb3362100dc000a009a0301000000007810101005050346147f0000009c0000040002c80000783c28465a3c0160,
  0x686400000224000014090000000000000000000000000a5011225100bb00b5970e2800170006003b0401000000009682770f0b0b0423197f000000f70000000401e10707213f2d234b2c0161,
  0x686400000224000014090000000000000000000000000a50112b5180bb00b5974e28007d000b009f0401000000005a82770f0b0b0423197f000000f700000008022d07073f53414173400162,
  0x68a400000202000014100000000000000000000000000a5010225180bb00b4173e2800960008003b040100000000781a1a1a0b0b0423197f000000c40000040001be07075a1e195a28140163,
  0x68a400000203000014100000700000000000000000042a50b02a5180bb40f6177e2801320010009f0401000000005a2e2e2e0b0b0423197f000000c400000410025a0707823c198246280164,
  0x22020000148a00004000000000400000000000000005a260242800109a808639463003e8001400a10301000000003c8b5e2207010546197f000000000000000202c8020b5748335344630165,
  0x6c30000000470000a4910000081000000000000000000a70112001119b01b41f8e2c000a000600950101000000005a1a1a1a0b0b0446197f000000c600000500022d0d0d505f414632410166,
  0x28040000002600013509000001000000000000000004e251956f1521bbf4a5937e6901d6000c00a3480100000000009a692e05050323197f0000000000000008021e10103c4b4b3c82410167,
  0x8c00060034010100000000008c17170f0f0046147f0000000000000001017d0d0d30171730175f0168,
  0x200400000002000004020000000000000000000000000240402000009a00a41bb26000a80007003c070100000000008d73270a060046147f000000c70000000101be0e0e3232323232320169,
  0x200400000002000014020000003400000000000000000240622a80009b00a61bfa600a05000f00a8070100000000008d73270a060046147f000000c700000002024b0e0e505050505050016a,
  0x20000000000200010c0000000014000000000000001e2240e00000019a4086133260018b0008003a0101000000005a0c732f05020346147f000000000000000101ff0a0e323719322846016b,
  0x20000000000200010c0000000014000000000000001e2240e00000019a4086133270036c000b00900101000000003c0c732f05020346147f000000000000000202780a0e464b2d463c5a016c,
  0x20000000000200010c0200000034000000000000001e2240e00800019a408613727005e2000e00ef010100000000000c732f05020346147f0000000000000003032d0a0e5a5f415a506e016d,
  0x2000000000020000044000000000000000000000001a0240000000409a0084133260020d00040045010100000000009b4b4b02020146147f000000590000001001ff0a0a374a20554023016e,
  0x28000000000300000c0000000104000000000000001a0240000800409a4084137260010e001100aa0101000000000029212102020146147f000000e200000014023c0a0a4b5e34696837016f,
  0x20000000000300000c0000000110000000000000001a0240100800409a00b41b726000e2001200aa090100000000005d212102020146147f000000e300000200023c0a0a4b72346954370170,
  0x30000000000200002c0400000100000000000000001a2240b05800409a50865b726800ea000a00aa070100000000000545210c020546281f000000e3000000110219050a412d37825a640171,
  0x2000000000020000040000000100000000000000001a0240100000409a00841b3260005700060074090100000000005d21210c0c044614bf00000000005d004002e10a0a412861371e2b0172,
  0x2200000000020000e000000000000000004000000004a240800104009ae4c413063301a50006003c0101000000005a7d45450e0e0523287f000000fa00000004012d0f0f1e28323c4b2d0173,
  0x2200000000020000e040000000000000004000000004a240800104009ae4c41306330451000b0093080100000000788e45450e0e0523287f000000fa00000020022d0f0f323c32645f410174,
  0x2200000010920001e800000000000000004000000005a242a04904009ae4c61346330402000f010e010100000000009916160e0e0523287f000000fa0000000c032d020f506e6450875f0175,
  0x204000000020000000000000000000000000000000000000000003b80006003c4101000000005a871d1d0a0a052328ff000000e90000001001030d083c231e5037280176,
  0x30200000000200002470000050300000000000000004a660b23080008ad9f617c62507e9000c00930101000000003c871d1d0a0a052328ff000000e90000002002030d08503732644b3c0177,
  0x30200000000200002472000050300000000000000004a660b23880008ad9f617c625157c0010010e01010000000000871d1d0a0a052328ff000000e90000003003030d085a5f468287500178,
  0x300000000802000001560000702000000000000000042240b15881888a50cfd9462008fc0011010545010000000000051d1d0f0f052350ff000000000000003003030505643232c864500179,
  0x200000000002000005120000503000000000000000042640f11881888a40c79b726006d60012010501010000000000731d1d0f0f052350ff0000000000000c0003030e0ec86432643250017a,
  0x300000000002000001720000502000000000000000042640b11981888ad0c79b462108020013010507010000000000871d1d0f0f052350ff000000000000042003030808964b32964b50017b,
  0x2270000010a20000648100000002000000400000001b8270312d01109a91b7bfd63f0190000e010e000100000000001a1a1a0f0f055a78fe0000000000000c0003030d0f826e6e5a5050017c,
  0x22b0000010820000648100000000000000400000001b8270312d01109a91b7bfd63f02580014010e010100000000001a1a1a0f0f055a7800000000000000030003030d0f6e826e505a50017d,
  0x20000000000200000c0200000830000000000000001e2240b10800408a40c79b72780dc0002d012e010100000000000202020f0f050078ff000000000000030003050a0a8c965a5a6464017e,
  0x30000000000200014006000038200000000000000004a242b559048a8af4cff946b3251c0023012e000100000000004646460f0f050078ff000000000000000c030504045a645a8c9664017f,
  0x2200000000830001cc0400000820000000400000001f2242b749069b8af4c7b376b3081100460132030100000000004c4c4c0f0f050078ff00000000000001080303020f5a965f5a96690180,
  0x747000000802000024d10000783000000000000000000f70112801908a91b59fc62c000b0003010e020100000000002020200f0f056478ff0000005b005b000303030d086464646464640181,
  0x7ca00000082700002411000072100000000000000004ae789128019ccbc1f5bfde2c02600011010e0004001e02ad002e2e2e0f0f050078ff000000000000014403030d0d3296963296320182,
  0x30020000040a00010104000000400000000100000004a260042000109a0184398620006600040040030100000000004b414107010346141f0000000000000004012d0b0b372d1f4044370183,
  0x30020000040a00010104000000400000000100000004a260042000109a018439862003ca000b008e030100000000004b414107010346141f0000000000000014022d0b0b41372455594b0184,
  0x32020000040a00010106000000600000000900000004a260a47800109a518639c6300c1c001600ec430100000000004b414107010346141f0000000000000018032d040b554b38696d5f0185,
  0x3110000000320001000000003e020000000200000004a36004013482dfa4cc110ea1003e0005003e4501000000000059424208050346141f0000000000000040012d09092c3a3d2c3a2c0186,
  0x311000000032000100000000360a0000000200000004a36c8405348adfe4cc110ea100dc0009008e4501000000000059424208050346141f0000000000000140022d0109344e51344e400187,
  0x311000000032000100000000360a0000001200000004a36ca44d348adfe4ce314eb90226000c00f00501000000000059424208050346141f0000000000000144032d010947686c47684c0188,
  0x3000000000020000040000000012000000040000001a82e0000008c19ac0cc13326000340004003f0101000000000080434305020346141f0000000000000100012d0a0a383d283533350189,
  0x3000000000020000040000000012000000040000001ea2e0000108c19ac0cc13326100e60008008e0101000000000080434305020346141f0000000000000200022d0a0a4c5132444240018a,
  0x3000000000060000044000000012000000240000001ea6e0a40908c19ac0ce137271034d001100ef0101000000000080434305020346141f0000000000000300032d080a656f3c585654018b,
  0x2100000010920000000000000000000000000000000103c400000001ba80841306200014000300310501000000005a333333040403460f7f000000bc0000004001ff02001e1e3c1e3728018c,
  0x2100000010920000000000000000000000000000000103c400040001ba8084130620009b000600770501000000003c781616040403460f7f000000bc0000008002780200282850324b37018d,
  0x2100000011920000000000000000000000000000000103c4000c0001ba808413462000f9000c00d605010000000000781616040403460f7f000000bc0000000c032d0200323264467855018e,
  0x30000000000200010d80000000060000000000000000a2e401040101ba00ad933e2000c8000500320501000000005a8d6d56050200460f7f000000000000000101ff000028231f282d3b018f],
  [0x30000000000200010d8000000006000000000000001ea2e4210c01c1ba00ad937e20013b000a00900501000000003c8d6d56050200460f7f0000009e009b0008027f0a003c37473c554f0190,
  0x100000000020000000000000801000000000000000000000000000000000000000000160003002700010000000000323d3d030303460f7f000001150000001001ff06062919192919250191,
  0x21000000004600008000000008010000000000000004a2410c2800219a80c4134e2100ff000a008600010000000000654444030303460f7f0000011500000008022d060633374133554d0192,
  0x20000000000200010020000000100000000000000004524001a00100ba0085938230005f00050035010100000000783e164f05050346147f000000000000000401eb0c0c22282d22412d0193,
  0x20000000000200010020000000100000000000000004524001a00100ba008593823001310009007f0101000000005a3e164f05050364147f000000000000000802780c0c313c3c31553c0194,
  0x20000000000200010120000000100000000000000004524001a80100ba008593c23001a4000e00eb010100000000003e164f05050346147f000000000000000c032d0c0c4f5f464f78500195,
  0x20020000040a000000000000084200000000000000008260142000109a08a4330720000c000200384301000000007866261e0f0f0346147f000000f50000010001ff030b463237231e280196,
  0x20020000040a000000000000004200000000000000008268142800109a08a43347200091000900e34301000000000065261e07060346147f022100f500000300034b030b697d5a37463c0197,
  0x310400000002000161040000382000000000000000042240a4520480ba748fd33630013b00090046010100000000007d6868010101461e1f0000000000000004012d05051e1e3a287d430198,
  0x33040000020200016104000038200000000000000006a242a45a0488ba74cfd376300401001000ad010100000000007d6868010101461e1f0000000000000008022d050532413a3ca5610199,
  0x300000000002000100640000002000000000000000042640a05004009b748fd33e30023a00050046070100000000002b0505010101461e1f0000000000000010012d0805582a1e762a1e019a,
  0x320000000002000100670000002000000000000000042640a05804009b748fd37e3005d7000d00ad070100000000002b0505010101461e1f0000000000000020022d08058a2f1ea8343c019b,
  0x20000020000000001000000000000000000000000000000000000000000220002002d070300210000008e3d3d030300460f7f0000000000000400017806062d1d242d1d28019c,
  0x61020000040a00000200000008510000000000000000027018280010ba00b43b47200041000500940703002302b0008e6b6b030300460ffe000000de00000800022d0b06694f24553b3c019d,
  0x60000000148200000200000000110000000000000000035018282010ba80b43b472000e900090094020100000000006e4444030300460f00000000de00000104022d0206325e42325e46019e,
  0x100000000820000000000000001000000000000000000000000000000000000000000370003003102010000000000377676030303460f1f0000005e00000040017802062a1e462a1e1e019f,
  0x21000000108200000000000000110000000000000000834108282880ba88841347210181000c00a6020100000000007f2e2e030303460ffe000000f500000410022d020666502866504601a0,
  0x201000000002000100a000001c460000000000000000836001a001819a008d93822000270004008e080100000000780a3532060500640a7f000000000000004002c80c0c5a2d5f462d3c01a1,
  0x20000000000200010c0000004000000000000000001e2240000000419a40cc1332e00127000700420501000000007829212105020046147f000000000000004001be0a0a1e3c5523413701a2,
  0x20000000000200010c0000004200000000000000001e2240000a00499b40cc137af0014f000b00ad0501000000005a29212105020046147f0000000000000080024b0a0a32557337695501a3,
  0x20120000040a000000000000004000000000000000000260042000109a00843906200021000400370901000000000022222207060046147f000000ef0000010001be0b0b353e232d232d01a4,
  0x20120000040a000000000000004000000000000000000260042800109a0084394620005d0005009e090200250000007a7a7a07060046147f000000ef00000200024b0b0b4e5755463c4601a5,
  0x200000000202000004040000000000000000000000120240000000409a0084133260003f00030041060200260000009f723c0b020046147f000000000000000101be0a0a3e392230304c01a6,
  0x2000000002020000040600000000000000000000001e2240a06800409a5a8e137260012b000900a6060200270000009f723c0b020046147f0000000000000002024b040a525c2744536f01a7,
  0x2804000000260001008800007f420000000000000004a374010f2080fa80edb34e2100cb000c00a9060100000000005c356505050464147f0000000000000080022d0000423c7342644b01a8,
  0x6424000002870000040100000000000000000000000082501322f100ba00b5970628000c00040046060100000000008a546a0b0b02461e7f0000000000000001017d02072c3c4622325a01a9,
  0x642400000287000004010000000000000000000000018250132af100ba00b59746280096000c00ae060100000000008a546a0b0b02461e7f021d000000000002023c0207365a502c509601aa,
  0x2118000008420001808100007b020000000000000000a264010401809a00acb316200037000400460501000000000007673208050000147f000000000097004001be0000382c552c423701ab,
  0x2118000008420001808100007b020000000000000004a264010c0188da00adb37620014d000c00a8050100000000000767380805008c147f0000000000970080023c0000603669544c4101ac,
  0x68e400000242000094090000080000000000000000000a50112a5111bb80b5974e28002c000900ad060100000000001a1a1a0b0b0423197f0000000000000500022d07076969693c3c3c01ad,
  0x2804000011900000150800000800000000000000000142d0110e4c00bb80b4134e280111000900b10401000000000099690f04040323147f0000000000000008021e0210346947347d6401ae,
  0x28000000000600018088000000060000000000000000835410270001bb80ad930e2100270005003e070100000000003314070505044614bf000000950000004001be0000252a552a373101af,
  0x280000000006000180880000000600000000000000008354302f0001bb80ad934e3101b6000a009e0701000000000080142f0505044614bf0000009500000080024b00003b407040524701b0,
  0x6c30000000470000a4910000081000000000000000000a70112001019b01b41f8e2c000600020039020100000000781a1a1a0f0f0446197f000000c60000010001780d0d32412d321e2d01b1,
  0x28000000000200011008000000000000000000000000e24000038400bb2cac130f3100c00004004206010000000000336a0105050046147f000000970000004001e1100329294a2f3f3f01b2,
  0x28000000000200011008000000000000000000000004e248000b8400bb2cac134f31017c000a00a806010000000000336a0105050046147f0000009700000002023c10033d4754435d6701b3,
  0x74a000000002000000500000001000000000000000000e70b23201008a51b63f862c025d0005003c0301000000005a86551a0a0a004614ff000000e90000001001ff0d0856181756183901b4,
  0x74a000000002000020520000003000000000000000042e70b23a81008a51b63fc62c074e000d00af0301000000003c86551a0a0a004614ff000000e900000410025a0d08744f2174594301b5,
  0x3018000000220000000e00000a020000000000000000024090108000ba50cc51062800960005003a050100000000009b45050f0f0046147f000000000000001001ff05052d0a0a5f503201b6,
  0x6cf000000822000004010000081200000000000000000a7011200180bb01f5bf8e2c00820006003e09010000000000656f2b0f0f0046197f000000000000040001910d0d5a463c2d191401b7,
  0x2510000008420000a4900000080200000000000000000274112004819a24b43b866000f40006006e0901000000000084201e0f0f048c28fe000000e7006e000101820000410f1e05056401b8,
  0x2000000011b20000800000000800000000000000000103c400000001bb8084130e2000130005009004010000000000914d3304040323147f0000011500000004021e02002a5c5b2d414c01b9,
  0x28a400000202000014080000080000000000000000004250102c5800bb40b4174e280438000a00aa06010000000000972e2e0b0b00461e7f0000000000000410026410076c5c236c5c3201ba,
  0x32000000000200014004000000200000004000000004a240a04104009af48e13063300cd0007003c0101000000005a1808080e010546287f000000c500000004012d040f2d282a2d463a01bb,
  0x32000000000200014004000000280000004000000004a240a04104009af48e1306330230000e0090010100000000001808080e010546287f000000c500000008022d040f373252415a4401bc,
  0x32000000000200014804000000280000004000000006a24aa44904a09af4ce13463303b60013010e010100000000001808080e010546287f000000c50000000c032d040f5550665f826c01bd,
  0x2c08000000020000a58000007c4200000000000000062244a00404809a74f7b33620041a0006004e04010000000000522f350f0f0546281f000000ea00ea00010132000055280528558701be,
  0x20100000082200012060000052080000000000000004224ca4070088da40ce1306b000ca00070039010100000000789e27500f0f0346191f0000000000000004014b010128233c28462801bf,
  0x20100000082200017060000052080000000000000004264ca44f0088da40fe1346b9021c000c00b8010100000000009a275008050346191f0000000000000104022d080146735a466e4601c0,
  0x300000000002000101040000000000000000000000042240a00000009a508e11063001ef000800420501000000003c9f2d2d050505461e7f0000000000000010018c04042a26204e484401c1,
  0x300000000002000101040000002000000000000000042240a04800009a508e1146300bb8001400b8050100000000009f2d2d050505461e7f0000000000000020023c040448442f76706c01c2,
  0x20000000000600011800000000010000000000000004a2490c2200a0bbc8ec130f210078000800420601000000007833610409030546147f000000f50000001001780603371e415a322801c3,
  0x20000000000600011800000000010000000000000004e249ac2e00a0bbc8ee134f310267000d00af0601000000003c33610409030546147f000000f500000020022d10034b3c5f6e5a4601c4,
  0x281400000826000014080000570c0000000000000004224da0064088fb4aee130fa000e60007003c010100000000968f576b080800640a7f0000011900000004018c0103283d32283d3001c5,
  0x281400000826000014080000570c0000000000000004a24da44e4088fb4aee134fa001bc000d00ac010100000000788f576b08080046147f0000011900000008024b0103415655416a5301c6,
  0x20030000040f000000000000004100000000000000008260042a0090ba0884314620010e000e009f0301000000003c1a1a1a07070546197f000000000000000802c80b0b485a2e48644a01c7,
  0x20000000008200000c0000000110000000000000001a0340102200409a00841b3260004600040042010100000000002972210c0c0146147f000000bb0000004001be0a0a3d314238313101c8,
  0x20000000008200000c0000000110000000000000001a0340102a00409a00841b726000f0000c00a1010100000000002972210c0c0146147f000000bb00000080024b0a0a56455b4c454501c9,
  0x2010000000020000040000000110000000000000001a0240a00020409a8086133260028a000a004501010000000000290b210f0f0546197f00000000000004000119020a783c3232142d01ca,
  0x20020000042a000104000000404000000000000000000260442000109a00a43bb26001f9000a0043080100000000002b757507010546147f000000f60000000401780e0b3c3e28323e3c01cb,
  0x22020000042a000104020000404000000000000000042260e42800989a40e63bf260054b001600ad080100000000002b757507010546147f000000f600000104023c0e0b555c3c4b5c5a01cc,
  0x28040000000600011408000042000000000000000006e259140f40a8fb81ec137e690154000b00b3040100000000007c2e2e05050323147f000000d9011e0044022d0e10552d7d41784601cd,
  0x24000000000200000271000000300000000000000000164013a881008a018593c6200708000c00f10701000000000094052a0a0a004614ff000000e900000300031e080c5a823c73464601ce,
  0x20000000000700012c02000070000000000000000006a256b60c8488ba74efb376200578001100b4090100000000000d0c1401010046147f0000011700000003021e00005f50325f556e01cf,
  0x33040000000200014d06000078a00000000000000006a64aa45b0488ba74cfd376300b0c001800f10701000000000078741f05010546147f000000000000000c031e0504373728828c7301d0,
  0x21020000060f00000002000000400000000000000004a268b42a0098bac9c63146200506001400bb0101000000000090662207070046147f0000000000000020021e0b0b326e327d646401d1,
  0x201000000002000102200000721a00000000000000043240a1a80188fb44df93ca20056a001200f302010000000000484e4e08080046193f000001420000000c031e0c0c555f5f437b4b01d2,
  0x201000000012000100000000320a00000000000000042240a008148aff64d6b14e2002a8001000f34001000000000048313108080046193f0000014300000300031e09095f7d53435f4b01d3,
  0x2120000019d20000a08100000012000000000000000122f4112c04819aa5f43fc624017c000f00f548010000000000692037060404460a1f0000000000000600031e02007378505f325501d4,
  0x20000000148200000000000008110000000000000000035018280000ba80b43146200203001300b403010000000000776e0303030046147f0000010900000008021e020638745f564c5601d5,
  0x20120000044e000180800000004200000000000000042265042c00119a80ac33463000ff000a00b80301000000000022666605050023231f0000000000000020022d0b0b413c5f826e4101d6,
  0x20100000004200018c800000001200000000000000042244400c00019a00ac1376700103000800b80101000000000073515105050023231f0000000000000200022d0e0e5f82416e3c4101d7,
  0x30000000118600011804000000010000000000000004a349ac5a20a0bbd8ce134f2101a9001400b3060100000000005a083403030346147f0000000000000020021e02044b2d5f7d5f4b01d8,
  0x310000000006000005060000002000000000000000042240a04800009a518e13f2700b5e001900ef050100000000002f510c05050546147f000000000000000c0332040e3c465050826e01d9,
  0x24a000000202000136b90000081000000000000000000a5011284100aa80b5b376240154000900f10001000000000094585b0a0a004614ff0000000000000300031e00004b875a46505501da,
  0x6cf000000a060000a001000072180000000000000004aa7db56c11adfbc1f69fceac0208001000e9080100000000009a50500b0b05231400000000000000000c032d010d734150417d4401db,
  0x300000000202000000770000702000000000000000042640a1d880009b5087d14e200d48000e00b8070100000000009f2a050a0a0046147f000000ee00000810023c0805964b2891373c01dc,
  0x682400000203000014100000700000000000000000042a50b02a5188bb40f6177e28042a001600ec040100000000002e2e2e0b0b0423197f000000c400000810032d070787412d87642d01dd,
  0x282400000202000004020000401000000000000000000250512a40809b00b59ffa60010a000d00a8080100000000008251510a06004614fe000000c700000080024b070e46506e46504601de,
  0x28240000020200001200000008100000000000000000025011a01100aa01a597862000030003009a0006002802b4001a1a1a0b0b004614ff0000000000000140022d070c4d5f5b4d323201df,
  0x74f000000466000120090000701000000000000000000b70112821908a11b5bfc62c000300030105020100000000001a1a1a0f0f058c50ff000000000000042003030d0d824b5f824b4b01e0,
  0x74f000000026000120010000701000000000000000000b70112821908a11b59ff62c000300030105090100000000001a1a1a0f0f058c50ff000000000000050403030d0d69695069695001e1,
  0x74f000000026000120810000781000000000000000000b70112aa5908b35b59fce2c000300030105010100000000001a1a1a0f0f058c50ff000000000000010803030d0d467d73467d4b01e2,
  0x3200000000020001c074000000200000004000000004ae42b16904038af4c79b76b31aae00360132080100000000008c2e2e0f0f050078ff0000000000000300031e0f0864965a78786401e3,
  0x2200000000020000c814000000000000004000000016aa42b14904898af4c79b76f30d20002a0132060100000000008c2e2e0f0f050078ff0000000000000300031e0f0a78966464785a01e4,
  0x300000000012000050440000082100000000000000042640a04a94029f648e314e3010cc0011010e050100000000003112120f0f05640a7f0000000000000300030308096a824d6a5a5b01e5,
  0x200000000806000025160000702000000000000000042240b15e008882c0c7da462010680025012e080100000000007070700f0f050078ff000000000000000c030300006e50646ea06e01e6,
  0x2204000002020001dc14000000200000004000000005a252314b11118a80b79f463b1d4c002d01320402002d02b3008c2e2e0f0f050078ff000000000000000303030f0778645a78649601e7,
  0x647000000002000024110000001000000000000000000a70112801109a01b43fd62c0358000f010e020100000000001a1a1a0f0f056478fe0000000000000c0003030d0d824b5578467801e8,
  0x2010000000460000048000000912000000000000001a0360100000c08a00841b3260001f000400d8010100000000005d5d5d0602054628ff0000000000000001031e0a0a50505050505001e9,
  0x6010000000460000048000000912000000000000001a0360102800d08a01b41bf268000e0003010e010100000000005d5d5d060205460aff000000000000000303030a0a64646464646401ea,
  0x28a40000080600001488000000000000000000000004e259952f5588abc8f5937e2801f9000f010e040100000000007b7b7b0f0f050078ff0000000000000240030310105a877d5a5a4601eb,
  0x21020000040a000020840000004200000000000000000260142800108a009439462000150002010e0302002e02b2001e1e1e0f0f036478ff0000009d009d0003032d0b0b64646464646401ec,
  0x3620000004920001fcd500000030000000400000000fee7db56f1d1b8afdf7bff67f0c8000200144871100000000007979790f0f050078ff00000000000000030303000078787878787801ed,
  0x603000000032000020810000391000000000000000003b641128559a8e24f5bdce2400280004010e02010000000000a2a2a20f0f056478ff00000000000000030303090d64646464646401ee,
  0x28030000040f000108000000004000000001000000008260042000109b8184398e2800510006003e030100000000007e414107050346141f0000000000000040012d0b0b372d3f372d2d01ef,
  0x28030000040f000108000000004000000001000000008260042000109b8184398e2800a000080091030100000000007e414107050346141f0000000000000080022d0b0b4b3c534b3c3c01f0,
  0x2a030000040f00014800000000400000000900000004a262042800109b818439ce280276002100ee030100000000007e414107050346141f00000000000000c0032d0b0b5f4b715f4b4b01f1,
  0x211000000012000101000000000200000002000000043260020014039e6484310e3000630005003e000100000000002f424205050346141f0000000000000001012d09092d2d2d2d3f4101f2,
  0x21100000001200010100000032020000000200000004326ca240148bde64c4310e30022b000a0092000100000000002f424205050346141f0000000000000008022d0109374637375d5a01f3],
  [0x21100000001200010102000032220000001200000004326ca24814cbde64c6714eb005dc001000ee4001000000000078424205050346141f000000000000000c032d0109416441417b6e01f4,
  0x20100000000200010c0000000002000000040000001aa261040400e09a808c133a60003b0005003e010100000000004b434305050346141f0000000000000100012d0a0a2d3f2d2d373701f5,
  0x20100000000200010c0000000002000000040000001aa261040400e09a808c133a6000f500080091010100000000004b434305050346141f0000000000000200022d0a0a3c533c3c4b4b01f6,
  0x20100000000600010d0200000002000000240000001ea263040c00e09a808c137a6003b2000f00ee010100000000004b434305050346141f0000000000000300032d0a0a466c4655645f01f7,
  0x211800000002000128800000064600000000000000008264040400809a00ac93062000740005003305010000000000943332050500460f7f000000000000000401ff000027232a27372d01f8,
  0x21180000000600012880000076560000000000000004a274152c00889a04ad93c620010e000b00930501000000000094332305050046147f000000000000000802ff0000453c4d45553c01f9,
  0x201000000002000080800000080200000000000000007244010c00009ac0ac93063000290004003705010000000000323548050503460f7f000000000000000401ff00002d19372d3c2d01fa,
  0x201000000002000080800000080200000000000000067244010e00009ac0ac93063000930009008207010000000000719216050503460f7f00000000000000080278000041233c41504101fb,
  0x201000000002000081800000082200000000000000067244010e00009ac0ad9346300262000c00dd07010000000000719216050503460f7f000000000000000c032d00005a2d505a645501fc,
  0x28240000002600019008000004420000000000000000c37011034001bb80a4130e21006500040038060100000000009e540705050046147f000000000000004001ff101025324225322901fd,
  0x28240000002600019008000004420000000000000000e370110b4001bb80a4134e210177000b009c060100000000009e540705050046147f0000000000000080025a101032586a32584001fe,
  0x25120000042e0001000000000e420000000000000000a26400232090fb408c310e2100690006003f0301000000000041525205050046141f000000b8009b004001be0b0b30354030353201ff,
  0x25120000042e0001010000000e420000000000000000a264802b2098fb40cc314e210131000b00ae0301000000000041525205050046141f000000b8009b0080024b0b0b3f62653f624b0200,
  0x2510000000360001000000002e020000000000000000a26400033482ff648c310e21006e0006003f4001000000000042525205050046141f000000b9009b004001be09093035403035320201,
  0x2510000000360001010000002e020000000000000000a264800b348aff64cc314e210118000a00ae4001000000000042525205050046141f000000b9009b0080024b09093f62653f624b0202,
  0x25100000002600010c0000004e02000000000000001aa264000320c0fb408c133a6100870006003f0101000000000043525205050046141f000000bb009b004001be0a0a3035403035320203,
  0x25100000002600010d0000004e02000000000000001aa264800b20c8fb40cc137a610122000a00ae0101000000000043525205050046141f000000bb009b0080024b0a0a3f62653f624b0204,
  0x60ba00000242000020110000001000000000000000000a50932001109b41b41f822c00e90006003a090100000000008c1c6c050504460a7f000000000000000101be0d0d3743182d194c0205,
  0x60ba00000242000020110000001000000000000000000a50932801109b41b41fc22c025d000b00aa090100000000008c1c6c050504460a7f0000000000000002024b0d0d5f6b1d5537740206,
  0x2000000011920000000000000800000000000000000103c4000000019a8084130e20001500030035070100000000004f6991040403460f7f000000000000000401ff02001e242b3237320207,
  0x2000000011920000000000000800000000000000000103c4000000019a8084130e2000960006007d070100000000004f6991040403460f7f0000000000000008027802002a32413e4d3e0208,
  0x2000000011920000000000000800000000000000000103c4100800019a8084134e200122000c00d7070100000000004f6991040403460f7f000000000000000c032d020037415d5069500209,
  0x20000000000200000020000001100000000000000000124001a001009e0085938220012a0008003b040100000000009d4e1f05050046147f000000000095004001be0c0c20324c203c2d020a,
  0x20000000000200000020000001100000000000000000324001a801029e008593c220031b001000ae040100000000009d4e1f05050046147f0000000000950080024b0c0c3f50743f644b020b,
  0x300000000002000000560000000000000000000000042640a05080009a508651022000b400040038010100000000009f05050a0a03460f7f000000ee00e5001001ff050519190f554b37020c,
  0x300000000002000000560000000000000000000000042640a05080009a508651022003fc00090089010100000000009f05050a0a03460f7f000000ee00e5001402780505283214696946020d,
  0x300000000002000001560000002000000000000000042640a05880009a50867142200a28001100e3010100000000009f05050a0a03460f7f000000ee00e5000c032d0505463c19828755020e,
  0x613800001496000020010000081400000000000000010bd013206110bb81b41f8a2c00150004003f0101000000000056676d040500460f7f000000000000004001be020d2b37482b2d37020f,
  0x613800001596000020010000081400000000000000010bd013286110bb81b41fca2c0069000900950101000000000056676d040500460f7f0000000000000080022d020d374d723739430210,
  0x30000000000200000044000000800000000000000004a249a40100809ad8ce11022100550003004247010000000000689f9205050046147f0000000000000004017804042d1e4428553c0211,
  0x30000000000200000064000000a00000000000000004a249a40900889ad8ce1142210194000700b247010000000000689f9205050046147f0000000000000008023c08044132583c876e0212,
  0x681800000a660001a49100007a1200000000000000021a74112405819a25bdbff62c0136000b01860901000000000067908306060446147f0000009e009b000202ff0000563c32563c670213,
  0x20100000080600000102000072000000000000000004226c80460088da40cc530ea0007d0006003d07010000000000597d3e08080346143f000000000000000401b4010123192337504b0214,
  0x20100000080600000102000072000000000000000004226c80460088da40cc530ea00190000c008e07010000000000597d3e08080346143f0000000000000008025a01013228285569550215,
  0x20100000080600000102000072000000000000000004226ca04e0088da40ce534ea00366000e00e305010000000000597d3e08080346143f000000000000000c032d010141372d5f8c690216,
  0x210000000002000084040000090000000000000000020240000000419a0a84130260002d0005003b010100000000000b5d2102020346147f000000000097004001ff0a0a2832402832320217,
  0x310100000002000084040000090000000000000000022240200000419a0a8413026000aa00080086010100000000000b5d2102020346147f00000000009700020278040a37414537414b0218,
  0x3101000008060000840400004b0000000000000000062268a00a00c99a4ace134360026c000f00e1010100000000000b8f2102020346147f0000000000970003032d040a4b554a4b55690219,
  0x20100000020700000102000072000000000000000004226ca04e0088da40ce130ea0022b000d00a30001000000000068273e080800461400010c00f100000002022d0101551e2d556478021a,
  0x20100000020600000102000072080000000000000004226ca04e0088da40ce130ea001fe000e00a341010000000000682705080800461400010c00f100000008022d01014b1e554b7d4b021b,
  0x20020000040a000002410000005100000000000000008270082200109a008439862800190003003e020100000000008e2244030303460f7f000000db0000001001ff0b063c282a46352d021c,
  0x20020000040a000002410000005100000000000000008270082200109a0084398628004900050085030100000000008e2266030303460f7f000000db0000002002780b0650322a5a3f37021d,
  0x20120000044e0000024100000051000000000000000082790c2f00309a818439c62900cd000c00dd020100000000008e2244030303460f7f000000db0000000c032d0b0646465c50674b021e,
  0x2100000000020000004000000001000000000000000022480a0200009a0884310720003500040034000100000000005f4426030303460f7f000000f50000001001ff0306271e393b2d1e021f,
  0x2100000000020000004000000001000000000000000022480a0200009a08843107200249000c007e070100000000005f4426030303460f7f000000f500000020027803064f282f6337280220,
  0x29000000000200010940000000010000000000000004a249ae0a00009a488e31472007d5001900d6000100000000005f442603030346147f000000f5000000c0032d0306453770595a3c0221,
  0x211200000486000000000000004200000000000000000270002000109a0084390e200006000300380301000000000022979e06070046147f000000000000004001be0b0b3225423c1b280222,
  0x211200000486000000000000004200000000000000000b7000280090ba00b439ce200042000700a80301000000000022979e06070046147f0000000000000080024b0b0b4b4d7455433c0223,
  0x201a0000044a000000000000004200000000000000008270002000109a0084390620004200050038030100000000006614220707004614fe000000000000010001be0b0b32461e32232d0224,
  0x201a0000046a000000000000004200000000000000008270042800109a008439c62000a3000b00a8430100000000006614220707004614fe0000000000000200024b0b0b4b6e5a4b3c460225,
  0x21000000000200002d0000000900000000000000001a8240000000409a0084131a6000b4000a00a10302002f02bc00685b780c0c0046287f000000e20000008002190a0a375062415c460226,
  0x3804000000020001180c000008000000000000000000c240a0464400bb588e110a3100980007003a0501000000000053991605050346147f000000000000000401b410042323412348320227,
  0x3804000000060001180c00000a000000000000000004e260a0474480fb58ce110a31014e000a007b0501000000000053991605050346147f0000000000000008025a10042d2d4a2d523c0228,
  0x3a04000000060001590e00000a000000000000000004e262a04f4488fbd8ce514ab303c3000f00e50001000000000053991605050346147f000000000000000c032d100446415c46755f0229,
  0x21000000001200002100000028000000000000000004236482001482be64cc310e3001770006003f0001000000000027373705050346147f0000000000980004017809092d0f322d5a46022a,
  0x210000000012000021000000280000000000000000042364a24a148abf64de714eb003a1000d00a80002003002bd00a17d7d05050346147f0000000000980008023c0909371e5f378c69022b,
  0x211a00000c0e000080000000094000000000000000000268000000109a80843906200118000a00a10301000000000072220b07070046147f000000ef0000020002ff0b0b436a3c43564b022c,
  0x30000000000600000042000000010000000000000004a249ac5100009ad08e71022100910003004100010000000000854b050a030046147f006a00ee0000001001be0506232337554132022d,
  0x30000000000600000042000000010000000000000004a249ac5900009ad08e71422107d0000e00a600010000000000854b050a030046147f006a00ee00000020024b05064b412d7d5f46022e,
  0x280400000806000170480000722c0000000000000004626e80460488db48cc530eb20076000600460201000000000016993d0e0500230f7f000001270000000401b40110462330464b32022f,
  0x2a0400000806000170480000722c0000000000000004626e804e0488fb48cc534eb2012c000b00ab0001000000000016993d0e0500460f7f0000012700000410025a0110732d3a735a410230,
  0x606000001192000034110000001000000000000000010ed011200110ba81b47fd22c008c000e00ac040100000000006e629304040046147f0000000000000200022d020d506761503a480231,
  0x68ac00000226000010430000000000000000000000000a5010225010ba00b41f0228000f0005003d040100000000009898980b0a0046197f000000f70000001001be070741371e551e260232,
  0x68ac00000226000010430000000000000000000000000a70102a5010ba00b41f422802fd001100a9020100000000009898980b0a0046197f000000f700000020025a0707695f1e91323a0233,
  0x30000000000200010c4600000000000000000000001e2240a05000409a508e53322000a50007004701010000000000210574090200461e1f0000000000000010012d050a2d3516674e360234,
  0x30000000000200010d4600000220000000000000001e2240a05800489a508e537220032a000c00ad01010000000000210574090200461e1f0000000000000020022d050a415320856c4a0235,
  0x31000000109200014844000009000000000000000000a3c0a05120009bd08e510a33005f0005004702010000000000818181090400461e1f0000000000000004012d02052d4a462d70370236,
  0x33000000119200014844000009000000000000000001a3c2a05920089bd08e514a330140000e00b102010000000000818181090400461e1f0000000000000008022d020541706e418c4b0237,
  0x240400000e0200001000000004400000000000000000024000028000ba0a84130720013600060042030100000000006a3c010a0a0046147f005c01190000004001be03033e28413e32320238,
  0x240400000e02000010000000044000000000000000000240001a8088ba0a94f347200431001300a6430100000000006a85010a0a0046147f0245005c01190008023c0303523c4b525f500239,
  0x28240000000600009008000009020000000000000000c36014064480bb80ac130e39007d000700424701000000000095959505050346191f0000000000000100014b1010285041284128023a,
  0x2824000000060000900800000b020000000000000000e360140f4488fb84ac134e39032b001000b30701000000000095959505050346141f0000000000000200022d10103c78693c693c023b,
  0x2018000000060001888000000c420000000000000000036401040081ba008c9b0628003a0004003c070100000000005c6538050504460fbf000000000096004001ff000028284b283237023c,
  0x2018000000060001888000000c4200000000000000000364010c0089ba008d9bc628004b000500a5070100000000005c6538050504460fbf0000000000960080023c00003c41733c5f4b023d,
  0x6c7000000062000020190000081200000000000000000a7091224190bb41b49f8a2c003a0004003a060100000000001777770808034614bf00000000009c040001c80d0d41372d321e2d023e,
  0x6c7000000062000020190000081200000000000000000a7091224190bb41b49f8a2c00b400070089060100000000001777770808034614bf00000000009c080002640d0d554b37462d3c023f,
  0x6c7000000062000020190000081200000000000000000a70912a4190fb41f49fca2c01b8000f00dd060100000000001777770808034614bf00000000009c0c0003320d0d6e5f415f37460240,
  0x69a800000222000020110000001000000000000000000e509320c0109a41b51f822c000a0003003a4301000000000090628e0b0b0346147f00000000009c010001c80d0d326914281e2d0241,
  0x69a800000222000020110000001000000000000000000e509320c0109a41b51f822c0050000600820301000000000090628e0b0b0346147f00000000009c020002640d0d3c7d1e3228410242,
  0x69b800000a26000021110000701000000000000000042e709328c0989a41b51fc22c00c9000a00dd0301000000000090628e0b0b0346147f00000000009c030003320d0d557d1e4b416e0243,
  0x2100000010820000040000000800000000000000001302c0000000409a808413126000370005003d010100000000005d913304020046147f000000000000000101be020a322c37322c3e0244,
  0x2100000011820000040000000800000000000000001302c0000800409a808413526000f2000d00a6080100000000005d913304020046147f0000000000000080022d020a3f57623f574b0245,
  0x200000000002000004610000081000000000000000000640400080009a008413ba6000390004003d080100000000008573730a0a0546147f000000000000010001ff0e0e3c412c3232240246,
  0x200000000002000004610000081000000000000000000640400080009a008413ba60019a000b008a080100000000008573730a0a0546147f000000000000020002780e0e4b503b4141330247,
  0x200000000002000004610000081000000000000000000640400880009a008413fa60023f000d00f1480100000000008573730a0a0546147f0000000000000300032d0e0e5f6e4f555f470248,
  0x20020000040a000000800000014000000000000000001264012400119a00a43b862000c30006004302040031000000209d2205050046147f000000000000004001be0b0032284b323c3c0249,
  0x20020000040a00000080000001400000000000000000b264052c00119a00a43bc620039d001300a605040034000000209d2205050046147f0000000000000008024b0b00463c5f466450024a,
  0x20100000108600010080000000120000000000000000934001a021809a8085938a20003200040096080100000000004e090905050046147f000000950095008002c8020c3c4b673c4b37024b,
  0x2000000004060000004000000001000000000000000082490c0000309a8084130220003b0005003f01010000000000633d44030300460f7f000000000000000401c806062d283c2d4b32024c,
  0x20000000040600000040000000210000000000000000a2490c0800389a8084134220014a000a00ad070100000000008e4b44030300460f7f0000000000000008024b0806693c14698746024d,
  0x200b0000040a000000080000004000000000000000000260002200109a0884330720000a0002003b08010000000000901b1b07070046147f024400570056000101be030b37370f2d3745024e,
  0x200b0000040a000000080000004000000000000000000260002a00109a08843347200069000600a248010000000000901b1b07070046147f0244005700560002024b030b50551e465572024f,
  0x2024000006030000140100000000000000000000001a0a50102010509a0ab41b3a60014a000c00430801000000000006820b0b0b0046147f000000000000040001be070a5541283228370250,
  0x2024000006030000140100000000000000000000001a0a50102810509a0ab41b7a600546001600a80801000000000006820b0b0b0046147f0000000000000800023c070a69553c463c640251,
  0x2010000002060000040100000100000000000000001a0240100000409a00b41bb268013c000c00a509010000000000905d830c020446287f0000000000000002024b0a0a2d2841504ba50252,
  0x20010000040200000220000001110000000000000000924909a00110ba008493822000060001004002010000000000447f0e03030046147f000000000000004001be0c06323941322f320253,
  0x20010000040200000220000001110000000000000000924909a80110ba008593c220008f000800a502010000000000447f0e03030046147f0000000000000080024b0c063c616c3c4d460254,
  0x310200000402000000700000006000000000000000002648033280108a0084b1062100bc0006003d07010000000000a0a0a00a070046147f000001200000001001ff080b56180a5b322c0255,
  0x31020000040600000070000000600000000000000004a668273b80108a9085b14621044c000a00ab07010000000000a0a0a00a070046147f0000012000000020025a080b743614835e4a0256,
  0x240000000003000000710000081000000000000000003640019001008a108491422000d20003003c470100000000001d3a390a0a034614ff0000000000000010018208083c2d1e4637280257],
  [0x240000000003000000710000081000000000000000003640019001008a108491422001fe0006009a470100000000001d3a390a0a034614ff0000000000000020023c08085546325f503c0258,
  0x240000000003000000710000081000000000000000003e40019801008a1085914220032a000600ea470100000000001d3a390a0a034614ff0000000000000030031e080855465a73643c0259,
  0x20000000000000000000000000000000000000000000000000000300020037080100000000001a1a1a0b0b0546147f000000000000004001be0c0c282d3c283723025a,
  0x20010000040700010820000001140000000000000000174001a021009a008593822000dc000c008e010100000000001a1a1a0b0b0546147f0000000000000008023c0c0c464b28465541025b,
  0x200100000c0700010920000031140000000000000004b76281a821009a44c593c2330325001500e8010100000000001a1a1a0b0b0546147f000000000000000c031e0c0c506932507355025c,
  0x6ca800000222000030110000081000000000000000000a5091204115ba41b49f822c005a0005004301010000000000941c8c08080046147f000000000000010001ff0d0d37551e373737025d,
  0x6ca800000222000030110000081000000000000000000a5091284115ba41b49fc22c0159000a00aa05010000000000941c8c08080046147f0000000000000200025a0d0d5f7d284b4b4b025e,
  0x202400000212000010000000000000000000000000000a5010225412be24b43d0e28001f00030037480100000000001731120b0b0346147f000000000000010001be0907374114371e32025f,
  0x202400000212000010000000000000000000000000000a5010225412be24b43d0e28008200060082040100000000001731120b0b0346147f0000000000000200025a09073c5f373c283c0260,
  0x202400000212000010000000000000000000000000000a50102a5412be24b43d4e280157000a00ea040100000000001731120b0b0346147f0000000000000300032d09075a91505a373c0261,
  0x23000000000200014900000000080000004000000004a249040a04a09ac08c130e3300b400060040030100000000007f684f0e010523287f0000000000000004014b0f0f281e393c572e0262,
  0x23000000000200014900000002080000004000000004a24b040b04a09ac08c130e330168000a0090030100000000007f684f0e010523287f0000000000000008023c0f0f3228434675420263,
  0x23000000000200014900000002080000004000000006a26ba40b04a89ac0ce134e33041f001200f3020100000000007f684f0e010523287f000000000000000c032d0f0f463c615a934c0264,
  0x20000000000200000500000042020000000000000006a260400100819ac08c13326100550005003d080100000000009b515105050046147f000000000099000401780e0e283c282846370265,
  0x20000000000200000500000042020000000000000016a260e44900899ac0cc137af10a28001a00aa0801000000000021515105050046147f0000000000990008023c0e0e504632506e5f0266,
  0x2000000000070000044100000010000000000000000006484000a0009a018433f26005c8000b00aa010100000000001a1a1a0a0a004619ff000000f60000080002190e0e875f691e32460267,
  0x200100000402000000000000001100000000000000000240080000109a0884130320004d0004003d000100000000008e4b5d030300460f7f000000000000001001c806064128195528320268,
  0x200100000406000000000000001100000000000000000340080800189a188413432000fd000800ad00010000000000543c5d030300460f7f0000000000000080024b06063c64912846500269,
  0x31040000020200000a2c0000090000000000000000020240a16200409a5a8f930220006e000700a5050100000000000807090b020046147f000000ed00000002024b0c0463512054426d026a,
  0x20100000082600000000000003080000000000000004236c94462088dac1cc130ea800c8000900460201000000000078902708050346197f000000000000000401b4010132374132552d026b,
  0x20100000082600000000000003080000000000000004236c944e2088dac1cc134ea80163000e00b30601000000000078902708050346197f0000000000000008022d01013c5f693c7d41026c,
  0x3a000000001200015900000034200000004000000006e642a00f05889bcc8e534e33056e001000aa00010000000000687d18010e00461e7f000000fa00000008022d0f0f5a3c305a784d026d,
  0x300000000802000005570000721000000000000000042260a2300088ea40f61f12200398000a003d430100000000006367590a0a004619ff0000010d0000000401be0704322323324a3b026e,
  0x300000000802000025570000721000000000000000052660a2780188ea40f6bf52200ce4001c00a9430100000000006367590a0a004619ff0000010d00000008025a0704503737507c59026f,
  0x38040000002600001068000002280000000000000000e269051740a0fbd0cc130a21006600050044000100000000002e278008080023147f00000000000000040178081028283c46552d0270,
  0x38040000002600001068000002280000000000000000e269055f40a8fbd0cc134a2102bc001000ac000100000000002e278008080023147f0000000000000008022d0810463c46647d410271,
  0x23000000000200002100000008200000000000000006b24ca44e00009ac086130e2003b2001000ac050100000000002b9d7805050046147f0000000000000008022d00005f28375f6e5f0272,
  0x20000000109200000100000000000000000000000005a3c4800502009ac0841306a100690005004608010000000000377d33040405461400000000000000000401be020032253c3253460273,
  0x20000000119200000100000000000000000000000005a3c4800d02009ac0841346a1019a000f00b300010000000000807d330404054614000000000000000008023c02004b39504b7b640274,
  0x2800000010960000104a000000000000000000000001e3c010064400bbc0a4130e20005a0005004a05010000000000858e910404052314fe000000000000001001be0210412d3c4b37460275,
  0x2800000011960000104a000000000000000000000001e3c0100e4400bbc0a4134e20018b000c00b305010000000000858e910404052314fe0000000000000200023c02105f375069416e0276,
  0x2c010000041700000100000032010000000000000000a24000091488bae48c330e210244000e00a94001000000000049125205050046147f0111000000000200025a09094269414261550277,
  0x21000000000200000140000000210000000000000004a641895d00109ad08c110221014a000300a90701000000000036374403030046147f0000000000000020025a080630306d706d3a0278,
  0x2204000000020000f904000008000000004000000004224611000400bb0084130e3000ad0008003c010100000000003737370e0e0523287f0000000000000004012d0f10322d263241340279,
  0x2204000000020000f904000008000000004000000004224611000400bb0084130e3001f4000e0093010100000000003737370e0e0523287f0000000000000008022d0f1046413a465548027a,
  0x2204000010920001f9040000081000000040000000072746b14a2509bb6586134e3006400012010e010100000000001a1a1a0e0e0523287f0000000000000300032d0f105a7d625a695c027b,
  0x200000000412000020200000001100000000000000001340080034028e24943986280120000b00480801000000000044313103030546287f0000000000000004012d090637323c375537027c,
  0x200000001492000020200000001100000000000000011348080834028ea49439c62801cc001000f80801000000000044313103030546287f000000de00de0300030f0906698764413c55027d,
  0x30100000000200002162000001200000000000000004a64d15dc00288a9184194a3909c400150105010100000000009a9a9a0f0f052350ff000000000000003003030108485a6c815a5b027e,
  0x30100000000200002106000000200000000000000004a24db45c00288ad186594a380a2800130105070100000000009a9a9a0f0f052350ff000000000000000c030301055a486c5a815b027f,
  0x20120000040a00002102000001400000000000000004a265146c00388a818439ce3807d000140105030100000000009a9a9a0f0f052350ff0000000000000c000303010b815a6c485a5b0280,
  0x2000000000b6000115080000080000000000000000052360000a6688bb8ad4534aa00276000f01050302003702c200809e9e0f0f055a7800000000000000000c03030202507d6f46734f0281,
  0x200000000026000111080000180000000000000000053760018a4788bb0ad5d34aa00262000f01050102003802c300809e9e0f0f055a7800000000000000000c0303020c507d6f46734f0282,
  0x2200000010920000e004000000000000004000000005a242804b148b8e65b439c6230ce40020013208010000000000a3a3a30f0f050078ff0000000000000300032d090f78965a6478640283,
  0x2200000010820000e024000010100000004000000005b64281eb01898a41b59bc2230d7a001d013204010000000000a4a4a40f0f050078ff000000000000000c032d0c0f64785a7896640284,
  0x320000000026000101160000000000000000000000052360a45a80889a5ade5142a802a8000f010e0502003902c4007d9f9f0f0f055a78000000000000000300030302045073655a7d590285,
  0x2300000010020000e404000000300000004000000005a642804b00898a41b41bf6630cb2001e01294703003a02bf002e2e2e0f0f050078ff000000000000010503030e0f5a825f5a827d0286,
  0x21100000000200000d80000001020000000000000006a24d144c00688a81841b4a7801e5000e01050202003c02c1009a9a9a0f0f052350ff00000000000003000303010a5a816c5a485b0287,
  0x6cf0000008660000a09100007a1a00000000000000042b74116f6199ca00f59fc62d00410006010e4802003d02be002020200f0f056478ff0000005b005b054003030d0080805a4d4d640288,
  0x240000000402000032f10000043100000000000000010741093981108e8595b1f2210339000f010e0605003e0000005858580f0f050078ff0000000000000144030308065f78635f78470289,
  0x1e2240b10800408a40c79b72780dc0002d012e010100000000000000000f0f050078ff0000000000000300030502088c965a5a6464028a,
  0x1e2240b10800408a40c79b72780dc0002d012e010100000000000202020f0f050078ff0000000000000300030502088c965a5a6464028b,
  0x262000f010e080100000000001a1a1a0f0f050000ff000000000000000003000c02646464646464028c,
  0x262000f010e080100000000001a1a1a0f0f05000000000000000000000003000d10646464646464028d,
  0x262000f010e080100000000009494940f0f050000ff000000000000000003000808646464646464028e,
  0x262000f010e080100000000001212120f0f050000ff000000000000000003000c08646464646464028f,
  0x262000f010e080100000000004e4e4e0f0f050000ff0000000000000000030008086464646464640290,
  0x262000f010e080100000000002525250f0f050000fe0000000000000000030000006464646464640291,
  0x262000f010e080100000000000f0f0f0f0f0500007f0000000000000000030000006464646464640292,
  0x262000f010e080100000000002e2e2e0f0f050000ff0000000000000000030010106464646464640293,
  0x262000f010e080100000000000a0a0a0f0f050000ff0000000000000000030000086464646464640294,
  0x262000f010e080100000000001919190f0f050000ff0000000000000000030007106464646464640295,
  0x262000f010e080100000000004242420f0f050000000000000000000000030009096464646464640296,
  0x262000f010e080100000000003030300f0f050000fe000000000000000003000b0b6464646464640297,
  0x262000f010e080100000000001a1a1a0f0f050000ff000000000000000003000c026464646464640298,
  0x262000f010e080100000000001a1a1a0f0f050000ff000000000000000003000c0d6464646464640299,
  0x262000f010e080100000000001a1a1a0f0f05000000000000000000000003000d10646464646464029a,
  0x262000f010e080100000000009494940f0f050000ff000000000000000003000808646464646464029b,
  0x262000f010e080100000000001212120f0f050000ff000000000000000003000c08646464646464029c,
  0x262000f010e080100000000004e4e4e0f0f050000ff000000000000000003000808646464646464029d,
  0x262000f010e080100000000002525250f0f050000fe000000000000000003000000646464646464029e,
  0x262000f010e080100000000002525250f0f050000fe000000000000000003000000646464646464029f,
  0x262000f010e080100000000000f0f0f0f0f0500007f00000000000000000300000064646464646402a0,
  0x262000f010e080100000000002e2e2e0f0f050000ff00000000000000000300101064646464646402a1,
  0x262000f010e080100000000001919190f0f050000ff00000000000000000300071064646464646402a2,
  0x262000f010e080100000000004242420f0f0500000000000000000000000300090964646464646402a3,
  0x262000f010e080100000000003030300f0f050000fe000000000000000003000b0b64646464646402a4,
  0x262000f010e080100000000000a0a0a0f0f050000ff00000000000000000300000864646464646402a5,
  0x262000f010e080100000000007878780f0f050000ff00000000000000000300000864646464646402a6,
  0x262000f010e080100000000002525250f0f0500000000000000000000000300010164646464646402a7,
  0x262000f010e080100000000001a1a1a0f0f050000ff000000000000000003000c0d64646464646402a8,
  0x262000f010e080100000000002525250f0f050000fe00000000000000000300000064646464646402a9,
  0x262000f010e080100000000007878780f0f050000ff00000000000000000300000864646464646402aa,
  0x262000f010e080100000000002525250f0f0500000000000000000000000300010164646464646402ab,
  0x262000f00710801000000003c8d651405050446147f0000000000000040030000002d144b23143702ac,
  0x7ca00000082300002111000002100000000000000004ae789128019ccbc1f5bfde2c02600011010e000400000000002e2e2e0f0f050078ff000000000000010803030d0d14b49614b43202ad,
  0x7ca00000082700002051000002100000000000000004ae789128019ccbc1f5bfde2c02600011010e000400000000002e2e2e0f0f050078ff000000000000042003030d0da0465aa0463202ae,
  0x7ca00000082700002011000072100000000000000004ae789128019ccbc1f5bfde2c02600011010e000400000000002e2e2e0f0f050078ff00000000000000c003030d0d5a5fb45a5f3202af,
  0x71000000000200000204000008110000000000000000025038280000ba50be1b4720004100050094070300000000008e6b6b030300460ffe000000de00000020022d0406553b24694f3c02b0,
  0x7100000000020000026000000c31000000000000000006501a280000ba00b41b4720004100050094070300000000008e6b6b030300460ffe000000de00000410022d08065f45245f453c02b1,
  0x20020000048a000020800000004200000000000000000260142800108a009439462000340004010e430200000000002020200f0f036478ff0000009d009d00c0032d020b4b787f4b676402b2,
  0x2204000000820001dc15000000200000004000000005a252314b11118a80b79f463b196400450132040200000000001a1a1a0f0f050078ff000000000000000303030f0764785a64789602b3,
  0x28240000020200001200000008100000000000000000025011a01100aa01a59786200003000300b6000600000000001a1a1a0b0b004614ff0000000000000140022d090c6b69566b413202b4,
  0x28240000020200001200000008100000000000000000025011a01100aa01a59786200003000300b6400600000000001a1a1a0b0b004614ff0000000000000140022d0a0c6b69566b413202b5,
  0x28240000020200001200000008100000000000000000025011a01100aa01a59786200003000300b6000600000000001a1a1a0b0b004614ff0000000000000140022d0e0c6b69566b413202b6,
  0x28240000020200001200000008100000000000000000025011a01100aa01a59786200003000300b6000600000000001a1a1a0b0b004614ff0000000000000140022d020c6b69566b413202b7,
  0x28240000020200001200000008100000000000000000025011a01100aa01a59786200003000300b6000600000000001a1a1a0b0b004614ff0000000000000140022d0b0c6b69566b413202b8,
  0x20000000008200000480000000000000000000000000024411240450ba34a5b33660000800030093080400000000003b3b3b0b060046197f000000f300f30001022d090946464646464602b9,
  0x20000000008200000480000000000000000000000000024411240450ba34a5b33660000800030093080400000000003b3b3b0b060046197f000000f300f30001022d0a0a46464646464602ba,
  0x20000000008200000480000000000000000000000000024411240450ba34a5b33660000800030093480400000000003b3b3b0b060046197f000000f300f30001022d0e0e46464646464602bb],
  [0x21000000000200002d0000000900000000000000001a8240000000409a0084131a6000b4000a00a103020000000000685b450c0c0046287f000000e30000008002190a0a375062415c4602bc,
  0x210000000012000021000000280000000000000000042364a24a148abf64de714eb003a1000d00bd00020000000000a17d7d05050346147f0000000000980200023c0d09698c37691e6902bd,
  0x6cf0000008660000a09100007a1a00000000000000042b74116f6199ca00f59fc62d00410006010e480200000000002020200f0f056478ff0000005b005b0054030301004d4d805a806402be,
  0x2300000010020000e404000000300000004000000005a642804b00898a41b41bf6630cb20024013b47030000000000a3a3a30f0f050078ff000000000000030003030e0f64aa5f5a787d02bf,
  0x2300000010020000e404000000300000004000000005a642804b00898a41b41bf6630cb20021013b47030000000000a4a4a40f0f050078ff000000000000000c03030e0f5a785f64aa7d02c0,
  0x21100000000200000d80000001020000000000000006a24d144c00688a81841b4a7801e5000e0105420200000000009a9a9a0f0f052350ff00000000000003000303010a5a816c5a485b02c1,
  0x2000000000b6000115080000080000000000000000052360000a6688bb8ad4534aa00276000e0105030200000000009090900f0f055a780000000000000000c0030302025a6e7950644f02c2,
  0x200000000026000111080000180000000000000000053760018a4788bb0ad5d34aa00262001e0105010200000000000a0a0a0f0f055a780000000000000003000303020c50916546694f02c3,
  0x320000000026000101160000000000000000000000052360a45a80889a5ade5142a802a8000d010e050200000000001616160f0f055a7800000000000000000c0303020450695b5a915902c4]]

end Verif.Data
