/-
Generated by tools/gen_personal.py from resources/bin/personal.
-/
namespace Verif.Data

/-- resources/bin/personal/personal_dp, 501 pieces of 44 bytes -/
def personal_dp : List Nat := List.flatten [
  [0x100000000000000000000000000000000000000000000000000000000000000000000000000000000000000,
  0x1029266242002101e088435072000000300414107010346141f000000000100402d030b41412d31312d0001,
  0x1029266242002101e088435072000000300414107010346141f0000000005008d2d030b50503c3f3e3c0002,
  0x10a9266242802101e088635473000000300414107010346141f000000000600d02d030b6464505352500003,
  0x1029246a40112821ee4cc5106230000000042420e010346141f000000000040412d0909323c412b34270004,
  0x1029246a40112821ee4cc5106230000000042420e010346141f0000000001408e2d09094150503a403a0005,
  0x103b246a409168e5ee4ce7146330000000042420e010346141f000000000300d12d0209556d644e544e0006,
  0x106c246220002c01e40cc53326500000100434302010346141f000000000010422d0a0a40322b41302c0007,
  0x106c246220002c01e40cc53326500000100434302010346141f0000000004108f2d0a0a50413a503f3b0008,
  0x10ec646a28802c81e40ce53727500000100434302010346141f000000000c00d22d0a0a69554e64534f0009,
  0x100000000000000000000000000000003001313030300460f7f00000000000135ff060614142d231e2d000a,
  0x100000000000000000000000000000003003d3d030300460f7f0000000000204878060619191e371432000b,
  0x101035630282214be80b43f4620000008000e0e030300460f7f00de00000600a02d0206505046322d3c000c,
  0x100000000000000000000000000000005001313030300460f7f00000000004034ff03061414321e2328000d,
  0x100000000000000000000000000000002003d3d030300460f7f0000000000204778030619192332192d000e,
  0x103134f242a22243e88c4354620000002004444030300460f7f00f5000004089f2d0306502d4b285041000f,
  0x10123c6200002047e8084130620000005004d33040403460f7f00000000004037ff0200232338282d280010,
  0x10123c6200002047e8084130620000005004d33040403460f7f00000000008071780200323247373c3f0011,
  0x10123c6200802047e8084134620000005004d33040403460f7f0000000000c0ac2d020046465b4b50530012,
  0x10213e6210003003e02add33e20000006003e32050500460f7f00c80000004039ff000023194823381e0013,
  0x10293e6250803003e02add37e30000005003e32050500460f7f00c800000080747f00004632613c51370014,
  0x10123c6200002047e8084130620000005003333040400460f7f0000000000403aff02001f1f461e3c280015,
  0x10123c6200802047e8084134620000005003333040400460f7f00f400000080a25a02003d3d64415a410016,
  0x100824ee00202013f488e570620000006003d160e050046147f0000000000043eff03033628372c3c230017,
  0x100824ee00a02013f488e5746200000063c3d160e050046147f000000000008935a03034f415045553c0018,
  0x1028266212003801e02cdd38221000002000909060500460a7f00ec009b008052be0c0c28325a1e37230019,
  0x1028266212803883e02cdd3c221000002000909060500460a7f009b000000c07a4b0c0c505a64375a3c001a,
  0x10a924fae0102803ed0ce51062100000200080805050046147f00d9000000105dff04041e1428554b32001b,
  0x10a924fae4902883ed0ce51462100000200080805050046147f00d900000020a35a0404372d416e644b001c,
  0x102924e200102003e8a8dd33624000001004f260501034614fe0000000000013beb0303282829342f37001d,
  0x102924e200102003e8a8dd33624000001004f260f0f034614fe00000000000275780303373738433e46001e,
  0x10ad24ea8c906883ffeefd37e35000001004f260f0f034614fe000000000003c22d0403554b4c57525a001f,
  0x102924e200102003e0a8dd33624000006004f260501034614000000000000043ceb030328283228392e0020,
  0x102924e200102003e0a8dd33624000006004f260501034614000000000000087678030337374139483d0021,
  0x10ad24ea8c906883f7eefd37e35000006004f2605010346140000000000000cc32d04034b55554d5c510022,
  0x102827639240b811e27fdfbb62d0000090062380606048c0abf0051009a000244960000413c23302d460023,
  0x1028276392c0b891e27fdfbf62d0000090062380606048c0abf0051009a0003811900005a553c49465f0024,
  0x1000246700212021e248c5906300000050012120505004614bf0098009800403fbe09094132412829260025,
  0x1000256700a12021e248c7946380000020012120505004614bf009800980440b24b09096451644b4c490026,
  0x10082763b240b811e27fdbbb625000009003838060604460abf0000000000024caa0000192d14142d730027,
  0x10082763b2c0b891e27fdbbf625000009003838060604460abf0000000000036d320000324b2d2d468c0028,
  0x10123c6200202057f88a4170e20000006002727040400460f7f00000000004036ff0203281e37232d280029,
  0x10123c6200a02057f88a4174e20000006002727040400460f7f000000000080ab5a02034b415a46504b002a,
  0x1001266242002101e088435072000000100222207070346147f0000000001004eff030b414b1e37322d002b,
  0x100126624200a901e088435072000000100222207070346147f0000000002008478030b4b552846413c002c,
  0x100126624280a901e088435472000000000222207070346147f000000000300b82d030b5a643255504b002d,
  0x1021267242002303e88cc35072000000078571b07030046147f00570056000446be0b06372d19374623002e,
  0x1021267242802303e88cc35472000000000571b07030046147f005700560018804b0b06503c1e505f3c002f,
  0x100024620200200be0894350620000006006e0e03030046147f0000000004004bbe030637282d32373c0030,
  0x101034620282214be8894354620000006006e1303030046147f0127000001408a4b03064b5a5a3c41460031,
  0x1021246a80102003ed88e11062000000500470805050046147f00ed0000004051ff04042d235f19370a0032,
  0x1021246a84902003ed88e11462000000500470805050046147f00ed00000080993204044632783250230033,
  0x1001356702302013f82add30e2400000200653505050046147f00d90000004045ff000028285a232d280034,
  0x1001356702b42013f82add34e3400000200650705050046147f00d900000080945a00004141733c46410035,
  0x106c246302102c01e80dc53326d0000025a0d0605020046147f00000000010050be0a0a3241373034320036,
  0x10ec246302902c81e80dc53726d0000013c0d0605020046147f000000000200ae4b0a0a505f554e52500037,
  0x10a834ea002028a3ec0cfd30ea100000500534805050046147f00c1000000044abe01012d23462350280038,
  0x10a834ea04a028a3ec0cfd34ea100000500534805050046147f00c100000008954b0101463c5f3c69410039,
  0x1028246200012023ea48c51063000000500121605050546143f0098009800045bbe090932463c2d4637003a,
  0x10a8246200816023ea48c71463000000500121605050546143f009800980008d54b090950645f506e5a003b,
  0x1044246200002003e009c13326400008100060b02020346147f0000000000404dff0a0a28285a283228003c,
  0x106c246200002803e00de13326500008100060b02020346147f00dd0000008083780a0a32325a414141003d,
  0x10ec24ea00a02883e40de1372e500008100060b02020346147f00dd00000030b92d010a5a46465f555a003e,
  0x1000a7631244b91bf03b45b8e2900000500271c08080346143f00f8000001004bc80d0d37695a0f1419003f,
  0x1000a7631244b91bf03b45b8e2900000500271c08080346143f00f80000020091640d0d4678691e23280040,
  0x1000a76312c4b99bf03b45bce2900000500271c08080346143f00f800000300ba320d0d5587782d32370041,
  0x10a824ea00202883e64ce1306a100000700633e08080346143f0000000000044bb401012323233250460042,
  0x10a824ea00202883e64ce1306a100008700633e08080346143f000000000008925a01013c322d4664500043,
  0x10a824ea04a02883e64ce1346a100000700633e08080346143f00000000000cc12d010155413750825a0044,
  0x1001266242002103e088435072000000300222207070346147f00000000000454ff030b1e4628234b320045,
  0x1001266242002103e088435072000000300222207070346147f0000000000089778030b2d5537325a410046,
  0x1001266242802103e088435472000000300222207070346147f00000000000cbf2d030b3c64464169500047,
  0x104524e240202403e088417326400000100401d09090546147f00f50000040069be030a6432462328280048,
  0x104524e240a02403e088417726400000100401d09090546147f00f500000800cd3c030a7850644146500049,
  0x10a8246aa5082801e74ce1106210000050005450a0a03460f7f00e50000001049ff04051e1e14645028004a,
  0x10a8246aa5082801e74ce1106210000050005450a0a03460f7f00e500000020867804052d2d23735f37004b,
  0x10a8246aa5882881e74ce1146310000050005450a0a03460f7f00e500000030b12d040541372d826e50004c,
  0x1008246200012021e248471062000000200123205050046147f00bf0000004098be090941415a375532004d,
  0x100824e200812021e248471462000000200123205050046147f00bf00000080c03c0909505069466441004e,
  0x100ca76312402409e24be5bb66c00000900140c02010046147f01170000000163be0d0a28280f41415a004f,
  0x102ca7631ac0ac89e24fe5bf66d00000900140c02010046147f00dd00000020a44b0d0a50641e6e4b5f0050,
  0x1000646132483000e038593862000000700052a0a0a004614ff00e90000010059be080c375f2d4623190051,
  0x1000646132c83000e038593c62000000700052a0a0a004614ff00e900000200a13c080c4678465f3c320052,
  0x10133ce340002247e808451062000000500273305040046147f0103000000045e2d02003e3a3c3741340053,
  0x10022c6200002047e808411062000000500303204040046147f00f40000000460be020023234b2d55230054,
  0x10022c6200a02047f8084114e2000000500303204040046147f00f4000000089e2d02003c3c64466e3c0055,
  0x1044246200002c03e00841b3264000008005d2f05020046147f00000000040064be0a0a462d2d372d410056,
  0x1044246208802c03e00841b7264000008005d2f05020046147f000000000800b04b0e0a5f464650465a0057,
  0x100824ea00282803f6ead970e20000006003c010b0b0046147f005c000000015abe03033228193250500058,
  0x102824ee00a82883f6eed974e21000006003c010b0b0046147f005c000000059d4b03036441324b69690059,
  0x1004246200282401e0084133264000006005c4b09090546147f00590058001061be0a0a192d2864411e005a,
  0x100424e208a82401f0084137264000006005c4b09090546147f005900580020cb3c0e0a2d5546b45f32005b,
  0x1000a567002d211bf08b4970e20000006001a1a0b0b0346147f0000000001005fbe03072364501e231e005c,
  0x1000a5e7003d291bf08b4970e20000006001a1a0b0b0346147f0000000002007e5a030737735f2d322d005d,
  0x1028a5e700bda99bf08f5974e21000006001a1a0b0b0346147f000000000300be2d03074b826e3c413c005e,
  0x10a8646ba5286001f508e510e300000070005450a0a0046197f0000000000106c2d04052d1e46a02d23005f,
  0x1000a7631240a81bf01f41b8e29000002006c0f08080046147f00000000040066be0d0d5a2b2a2d303c0060,
  0x1000a76312c0a89bf01f41bce29000002006c0f08080046147f000000000800a54b0d0d7349434649550061,
  0x102d247a40002e03e40cc133264000000004b3409090046147f00000000000473e10a0a1919325a691e0062,
  0x102d247a40802e03e40cc137264000080004b3409090046147f000000000008ce3c0a0a32324b7382370063],
  [0x1000246032083002f0285938a2000000000092b0a0a004614ff00000000004067be0c0c373764321e280064,
  0x1000246032883002f028593ca2000000000092b0a0a004614ff000000000080963c0c0c50508c46323c0065,
  0x1008a7634208210be099435872000000978222207070546147f000000000010625a0d0b2d3c2850283c0066,
  0x1008a7634288210be099435c72000000200222207070546147f000000000200d42d0d0b417d37555f5f0067,
  0x10a8246ac0002a03ef4ce513621000005001f4501010046147f01020000001057be04043228235f32320068,
  0x10a8246ac4802a83ef4ce517621000005001f4501010046147f0102000000207c4b040450322d6e503c0069,
  0x10a824ea04002883e40c61306a10000050078070808004619000000000000088b2d01016e2357357832006a,
  0x10a8246a0400a883e40c61306a10000050059330808004619000000000008008c2d01016e234c4f6932006b,
  0x10ad256b40802803e76eff37625000009000c1401010046147f0117000000027f2d00004b3c1e4b375a006c,
  0x1000246622292003f2ea5930e20000006001a1a0b0b0046147f00e40000001072be03032d3c235f4128006d,
  0x1000246622a92003f2ea5934e20000006001a1a0b0b0046147f00e400000020ad3c030346553c785a41006e,
  0x10a824eac5206003e768fd3363000000700451f05010546147f000000000010877805041e1e195f5550006f,
  0x10ad24eacdb06883e76cfd3763100000700451f05010546147f000000000008cc3c05042d2d287882690070,
  0x10a8276b92c0b819e76f7fbf66d00000900201e0606048c28fe00e7006e0002ff1e00006923320505fa0071,
  0x1021266342802103e0b8435472000000100662207070046147f000000000010a62d0b0b28643c7337410072,
  0x10ad246a0890a883ef6eff376750000059671300101004614fe000000000002af2d000050285a505f690073,
  0x1044646200006401e00841332640000010061210e020046147f00eb0000010053e10a0a19463c46281e0074,
  0x1044646200806401e00841372640000010061260e020046147f00eb000001109b4b0a0a2d5f555f41370075,
  0x104424e200002001e00841332640000000029210c0c0046147f0000000000046fe10a0a32233f3c432d0076,
  0x104424e200802001e00841372640000000029210c0c0046147f000000000008aa3c0a0a504144415c500077,
  0x1044646132402400e019593b264000085001e230909054614ff005b005a00406ae10a0a374655372d1e0078,
  0x1044e7613ac02408e019593f264000006001e230909054614ff005b005a0080cf3c0d0a556473554b3c0079,
  0x1000a76312e0b99bf83f5bbce29000009006f2b08080046197f009a00000800882d0d0d78645a412d28007a,
  0x1031347240822247e80c413462000000300654403030046197f000000000004bb2d0206503769506e46007b,
  0x1000a7630ae0a98bf01f413fa6d000000006c0c0808004619fe009900990200892d0d0e5f735f233241007c,
  0x10a8246212803883e02d5d3c22100008200090908080046193f0142000000809c2d0c0c555f69395341007d,
  0x10a82462008128a3e24d451462100000000313108080046193f000001430200a72d090955645d395f41007e,
  0x10a9247ac4802a83e40ce1346a100000500683403030546197f000000000008c82d0606463755647d41007f,
  0x10ac246a04a02001e7687f37624000005005316050505461400000000000044d32d000046286e5f644b0080,
  0x1000000000000000000000000000000005a21210e0c0546057f00000000004014ff0a0a140f50370a140081,
  0x106c24661ca06401f3487937a740000013c16160e0c0546057f000000000008d62d020a643c514f7d5f0082,
  0x106c256208806401e0295db7274000001004b0b02010546287f000000000002db2d0e0a5f553c5055820083,
  0x1000000000000000000000000000000060007070d0d004614ff0101011200013d2300003030303030300084,
  0x1000246200002001e00ac530620000005005b3205050046231f0000000004005c2d0000412d373237370085,
  0x106c246200802401e00ac537674000001000b0b05050046231f000000000002c42d0a0a5f6e413c41820086,
  0x1028246212803001e02add3c630000002000a0a05050046231f000000000080c52d0c0c5f6e823c41410087,
  0x1028246200812021e24ac53463000000000121205050046231f000000000008c62d09096e5f413c82410088,
  0x1000a56112c03002e82b5f376200000090058240a0a004614ff000000000100822d00004b5528463c410089,
  0x1064246aa1002403e5084133264000001004b21090200461e1f000000000010632d0a05375a23642823008a,
  0x10e4246aa5802403e5084137264000001004b21090200461e1f000000000020c72d0a054673377d3c46008b,
  0x1064246a81002403e508c173264000005000421090200461e1f000000000010632d0a052d37375a501e008c,
  0x10e5247ac5802403ed0cc177264000005000421090200461e1f000000000008c72d0a0546415069733c008d,
  0x103a246a85a06047ff486534e32000006002e4504040546231f000000000080ca2d02054b3c82416950008e,
  0x10ac246a00c02881e76f7b37625000004002f1101010546281f00ea00ea00029a1900006e411e416ea0008f,
  0x10323c6008802044e9184137674000001002e2e0f0f052350ff000000000c00d703020e7d5f5564555a0090,
  0x10323c6012803044e928593c630000002002e2e0f0f052350ff000000000300d803020c5a7d64555a5a0091,
  0x10323c6000812064eb4843b4630000002002e2e0f0f052350ff000000000300d9030209557d5a5a645a0092,
  0x1044246210006001e2685db7664000001003d3d0e020523287f00eb00000004432d0f0f3232322d40290093,
  0x1044246210006001e2685db7664000001003d3d0e020523287f00eb00000008902d0f0f46464641543d0094,
  0x107f246a148068c5ef6c7db76770000050027270e020523287f00eb0000000cda2d020f6464505f865b0095,
  0x10a8a7e91ec5b998ff7f7fbfeed000006002e2e0f0f050078ff000000000300dc030d0d5a9a825a6e6a0096,
  0x10fffffffffffffffffffffffff000009001c1c0f0f036478ff009d009d0003402d0d0d6464646464640097,
  0x1001266242002101e01847d872000000300414107010346141f000000000400402d0b0b41312d41312d0098,
  0x1029266242002101e01847d872000000300414107010346141f0000000004108d2d0b0b503f3c503e3c0099,
  0x10a9266242802101e01867dc72000000300414107010346141f000000000810d02d0b0b645350645250009a,
  0x1001246200012021ea48c11062000000200424205050346141f000000000040412d0909323c412b3427009b,
  0x1029246200012021ea4cc11063100000200424205050346141f0000000001408e2d09094150503a403a009c,
  0x10a9246a209128a1ee4ce31463100000200424205050346141f000000000300d12d0909556d644e544e009d,
  0x1045246a40102801ec0cc53326500000100434302010346141f000000000004422d0a0a302c2b404132009e,
  0x106d246a40102801ec0cc53327500008100434302010346141f0000000000148f2d0a0a3f3b3a505041009f,
  0x10ed246a48906881ec0ce53727700000100434302010346141f000000000018d22d0a0a534f4e64695500a0,
  0x1005366200103803e06ecf31625000005003332050500460f7f009b0000000439ff00002d2314222e2300a1,
  0x102d366200903883e06edf37625000005003332050500460f7f009e009b0080745a0000372d5a404c5500a2,
  0x10122d6300422047e81b41306200000055a330f040400460f7f0000000000013aff02003824321e1e3c00a3,
  0x10122d6300c22047e81b41346200000053c330f040400460f7f000000000002a25a0200604c4632326400a4,
  0x100034624202a843e81cc3d8621000000003044030304460f7f00000000040036ff02065028371e142800a5,
  0x102834624282a8c3e81cc3dc621000000003044030304460f7f000000000800865a02066e375532233700a6,
  0x100024e202002003e089c350620000003000f44030304460f7f00000000000436ff030628281e283c2800a7,
  0x100024e202802003e089c354620000000000f44030304460f7f000000000008865a03063c3c28465a4600a8,
  0x10123c7600a02057f88a4174e20000006002727040400460f7f0000000000c0cc5a0203504682505a5500a9,
  0x1044246212003401e028593326400000100230a0c0c0546147f00e3000000015abe0c0a38384326264b00aa,
  0x1044246212803401e028593726400000100230a0c0c0546147f00e3000000029c4b0c0a4c4c433a3a7d00ab,
  0x1000266212003801e0285d382200000020009090f0f00460a7f009b000000402abe0c0c23233c0f281400ac,
  0x1000276312402801e27bc7b86240000090062380f0f048c0abf0051009a040025960000372d0f1c193200ad,
  0x1000276312402801e27bc3b86240000890038380f0f04460abf00000000000127aa000014280f0f1e5a00ae,
  0x1020276312002801e27b43b86240000080020370f0f04460a1f0000000004004abe000041281441142300af,
  0x103227631282a845ea7f43bc625000008002037060404460a1f000000000800724b020069502855283700b0,
  0x1000bf631202204fe81b437862800000300301c04040046147f00000000010049be020d2d46462d322800b1,
  0x1012bf631282204fe81b437c62800000300301c04040046147f000000000140ab4b020d465f5f464b4100b2,
  0x1000246212003001e0285d3822000000800090905010346147f0000000001003beb0c0c2d412328283700b3,
  0x1028246212003801e02c5d3822100000900090905010346147f00000000020075780c0c3c502d37374600b4,
  0x10a8246212803881e02c5d3c22100000200090905010346147f000000000300c22d0c0c5a73374b4b5a00b5,
  0x100126624280a901e08843d472000000300222207070346147f000000000c00b82d0b0b645a3255504b00b6,
  0x106c266200002801e00cc5332650000013c252f060204460a7f0000000000023abe0a0a32142832144600b7,
  0x106c266200802881e00cc53726500000100252f060204460a7f000000000003994b0a0a50323250326400b8,
  0x1028246b85082803f50ce110e290000050045050a0a0046147f00000000002087410505411e1e73644600b9,
  0x106c246200a02883e00de13726500008300060b02020346147f00dd00000c00b92d0a0a645a464b4b5a00ba,
  0x1000366242022101e808435072000000900662207060346147f0000000004004aff020b37233228232300bb,
  0x1000366242022101e808435072000000300662207060346147f0000000000808878020b412d50322d3700bc,
  0x1000366242822101e808435472000000100662207060346147f0000000000c0b02d020b55376e46374b00bd,
  0x1029376210302813e82edf30e2500000600353205050446147f0000000000405e2d000037285537463700be,
  0x1001266242002101e08843d8720000002005e2207070346147f00c00000010034eb0b0b1e1e1e1e1e1e00bf,
  0x1001266242802101e08843dc720000002005e2207070346147f00000000020092780b0b55691e374b4b00c0,
  0x1010356202022047e80b4350620000000780e0303030046147f010900000040934b02062d4b5f2d414100c1,
  0x1064246202002001e188e533264000001780b0605020046147f00000000000134ff040a19190f2d2d3700c2,
  0x106c246a06802881e58ce5372650000013c0b0605020046147f000000000002895a040a41412355555f00c3,
  0x1001a76302802009e01bc53c628000006001c1c05050046231f000000000200c52d0d0d5f826e3c414100c4,
  0x1001256702a02011f00bc534e20000004001c1c05050023231f000000000800c52d1010823c416e415f00c5,
  0x10122d6710242057f80b4130e2800000400690f04040323147f0000000000406b1e02102a555b2a553c00c6,
  0x102ca7631ac0ac89e24fe5bf66d00000900140c02010046147f00dd00000c00a4460d0a6e641e504b5f00c7],
  [0x1000a5671225301bf82b5930e28000007001a1a0b0b0423197f000000000400932d07075555553c3c3c00c8,
  0x100000000000000000000000000000084001a1a0f0f004628ff0000000001043de10d0d30483030483000c9,
  0x1000000000000000000000000000000010017170b0b0046147f000000000002b12d0d0d3a21213a21be00ca,
  0x1028a7631240310be03b7d3862800000200302705050046147f009c00000200953c0d00415a5541504600cb,
  0x1028246aa0282001e518e35862000000700050503030046147f0000000000103cbe060623230f5a413200cc,
  0x1028646aa1a82001e518e35c62000000600050503030046147f000000000020764b08063c3c288c5a4b00cd,
  0x102825ebb0003043e66aff3362c00000200322005050046147f0000000000017dbe000041412d46466400ce,
  0x103934fec5202a47fd8ce530e2000000600083403030346147f0000000000106c3c0204412355694b4100cf,
  0x10a9646fa5a86001f508e514e300000070005450a0a0046197f00e900000020c419040841371ec8554b00d0,
  0x1028246210202823f2eefb30eb50000090032160605044614bf0000000000043fbe000028281e32503c00d1,
  0x10a8246a14a028a3f6eeff34eb5000006005f160605044614bf000000000008b24b00003c3c2d4b785a00d2,
  0x104424e230282401e0aa4133a640000070021260c0c0046147f00f500000004642d030a3737554b5f4100d3,
  0x1039747240822a47e90c413462000000000654403030046197f000000000008c819080650374164824600d4,
  0x1028246aa7002001e588e19062000000200520503030346147f009b009b041050be0506e60a05e60a1400d5,
  0x1029246a44902883ec0ce1346a1000001003e4403030546197f000000000008c82d01065f28554b7d5000d6,
  0x102d25f748342a13f80ec533e6900008400332705050323147f00d9011e0040843c0e104b2373375f3700d7,
  0x1029246a40302803fc0ce130eb1000085005f3505050046147f0000000000047c78000032322832503c00d8,
  0x10a9246a4cb02883fc0ce134eb1000005005f3e05050046147f000000000008bd3c00004b4b374b825a00d9,
  0x1020246a00012021e65841186200000000031280b0b0046147f0000000001004ebe090928461428282800da,
  0x1028246aa5892021e758631c6200000000031280b0b0046147f0000000000209a4b050950501e78323200db,
  0x1028246a80002001e518e13b27000000500510c05050546147f0000000000044ee1040e1e1e3228323200dc,
  0x1028246a8c802001e518e13f27000000500510c05050546147f000000000005a04b040e3c3c3250646400dd,
  0x102c246a85082401e51be1bb66c000009001e370902044614bf00ee00000410713c050a55412355373700de,
  0x1044246210003403e24941377240000070061370c020046147f0000000001004ebe0a0a23414123412300df,
  0x1044646210a03503e2c941377240000000061150c020046147f000000000104a44b0a0a4b692d4b694b00e0,
  0x10122c6208402803e80c413326500000000374805020446147f000000000040b72d020e2d414b2d372d00e1,
  0x1054246a00802401ec086137364000006000b2102020546197f000000000800a819020a8c504646284100e2,
  0x10336c7ec2202047fd084110e3000000700053304040546197f000000000020a81902084628468c504100e3,
  0x1020256600252033f2ca4710e3000000400123005050523147f000000000100727809103250411e3c2d00e4,
  0x1028256600a52033f2ca4714e3000000400123005050523147f000000000200cc2d0910506e5f325a4b00e5,
  0x1044646200806401e00841372640000010061210e020046147f00eb00000504cf2d0f0a5f5f555f5f4b00e6,
  0x1028246a80002001e508651063000000100353505050046147f00b9000000017c7804042828283c3c5a00e7,
  0x102824eaa5802001e508651463000000700050505050046147f00b900000014bd3c04043c3c3278785a00e8,
  0x1000a56112c03002e82b5f376200000000058240a0a004614ff000000000200b42d00005f693c5a505500e9,
  0x1000a5631280310be03b7f3863800000500771605050546147f000000000004a52d00004155553e5f4900ea,
  0x10000000000000000000000000000000800651405050446147f0000000000406a2d00002d144b23143700eb,
  0x1028246a00002003e00c61306a000000600503e0f0f004619000000000000045b4b010123232323232300ec,
  0x1028246a24002003e90ce1306a00000050065160808004619000000000008008a2d01016e23465f5f3200ed,
  0x1000a7630a60280be01b413b26c000009006c0c0f0f004619fe009900990100572d0d0e4155410f1e2d00ee,
  0x1020246212003803e02d59382210000820009090f0f0046193f0142000000406a2d0c0c37415f253f2d00ef,
  0x1020246200012823e24d45106210000800031310f0f0046193f000001430040752d0909374653254b2d00f0,
  0x102c246bb0802881e52e7f3762500000900712f0505054614fe002100210020c82d000046286469505f00f1,
  0x10a8276b9ac0b899e76f7fbf66d00000900201e0606048c28fe00e7006e0003ff1e0000874b370a0aff00f2,
  0x10a9246112803000e13add3c638000002002e2e0f0f052350ff000000000180d8030c0c6473734b555a00f3,
  0x10a9246106812020e35ac734638000005002e2e0f0f052350ff000000000009d90309094b5a6455737300f4,
  0x10e5246108802400e11ac53767c000001002e2e0f0f052350ff000000000810d7030a0a735a55734b6400f5,
  0x1020246e85202001f50ce134e20000003003e3e01010523287f000000000004432d0405322d2932403200f6,
  0x1020246e85202001f50ce134e20000007003d3d01010523287f000000000008902d040546413346544600f7,
  0x10ad246e9db06881ff6cfd37e37000003002d2d01010523287f00000000000cda2d1005645f3d6e866400f8,
  0x107e25611a80744ce93b7dff67c000008002e2e0f0f050078ff000000000c00dc03020d9a5a6e825a6a00f9,
  0x103a2d6112813064eb7b7bfc638000000002e2e0f0f050078ff002c002c0c00dc0302099a6e5a5a826a00fa,
  0x1001b761d2823908e93b43fc62c000003001e1e0f0f036478ff009d009d0003402d0b0d64646464646400fb,
  0x1029266a4200a901ec0cc7d07210000030041410e010346141f000000000040412d0b0b374146232d2800fc,
  0x1029267a4200ab01ec0cc7d07210000030041410e010346141f0000000000808d2d0b0b41555f2d413200fd,
  0x10a9267a4280eb81ec0ce7d47330000030041410e010346141f0000000000c0d02d0b0b55697841554600fe,
  0x1029246a40112021ee48c11062000000000424205050346141f000000000100412d090932462d283c2d00ff,
  0x102924ea401128a1ee4cc1106a100000000424205050346141f0000000001048e2d01093c55373c553c0100,
  0x10a924ea449128a1ee4ce3146b100000000424205050346141f00000000000cd12d0109466e504678500101,
  0x106c246a00002001e408c53326400000100434302010346141f000000000004412d0a0a3232283246320102,
  0x106c246a80002801e40ce53326400000100434302010346141f0000000000088f2d040a463c324655460103,
  0x10ec246a8c802881e40ce53727500000100434302010346141f00000000000cd22d040a5a553c5a6e640104,
  0x1020246600242013f00ac530e30000007005f32050500460f7f00970000000437ff10101e1e232337230105,
  0x1028246600a42013f00ac534e30000007005f16050500460f7f009700000008807f10103c3c46465a460106,
  0x1025266210003803e02add33624000005005235050500460f7f009b000000403cff0000291e3c291e260107,
  0x102d266210903803e02add37634000008005235050500460f7f009e009b0080805a00003d32643d464e0108,
  0x100000000000000000000000000000000001313030300460f7f00000000000136ff06061e1414232d2d0109,
  0x100000000000000000000000000000008003d3d030300460f7f0000000000204878060619190f372332010a,
  0x1010346202822143e80b43d4620000002004444030300460f7f012700000300a12d0206325a4132463c010b,
  0x100000000000000000000000000000006003d3d030300460f7f0000000000204878060619190f372332010c,
  0x1010346202822143e88b435c620000003001313030300460f7f012700000c00a12d03065a324146323c010d,
  0x1004266242002103e0084373764000003002c21070203460f7f0000000004004aff0b0a32281e1e1e28010e,
  0x106c26624200a903e00c4373764000003002c21070203460f7f0000000008008d780b0a463c3232323c010f,
  0x10ec26624280a983e00c4377765000003002c21070203460f7f000000000c00b52d0b0a645a464646500110,
  0x1020266242082101e00ac350720000005003022070503460f7f0000000000104aff0b0b1e1e1e3228280111,
  0x1029266f422c2903f40ec354720000005003022070503460f7f0000000000088d78100b283c3c2846460112,
  0x1039267f42ae2983fc0ec354720000005003022070503460f7f00000000000cb52d100b3c5a503c645a0113,
  0x10123c6200002047e8084130620000001003e3e040403460f7f00c3000000403bc802001e1e551e37280114,
  0x10123c6200802047e8084134620000001003e3e040403460f7f00c300000080a22d020032327d3c553c0115,
  0x10123c6200002447e828413326400000800333304020046147f00000000004040be020a1e37551e1e280116,
  0x10163c6200a02c47e828413726400000200333304020046147f000000000020a42d020a46554164323c0117,
  0x1000a7631240381bf03b49b8e2800000800241c0b0b0523147f00000000010046eb0d0d232d2819191c0118,
  0x1000a7631240381bf03b49b8e2800000800241c0b0b0523147f0000000002008c780d0d3741322323260119,
  0x1000a76312c0399bf03b49bce2800000800241c0b0b0523147f000000000300d02d0d0d737d50414144011a,
  0x1000246302002003e00a4373624000001002121030200460f7f0000000000403fc80a06343241201e28011b,
  0x1010346302822143e80a4377624000001001616030200460f7f00de00000500804b020652503c3e3c46011c,
  0x1000266242002111e08843d0720000005785a1b070602460f7f00be0000000141ff0b0b3c28233c283c011d,
  0x1029266a4680a991e48c47d47a1000003005a1b070602460f7f00be00000008a55a010b3c3c4650823c011e,
  0x1029246a00102801ee6e5b336a5000005003636050505460f7f00000000000153ff000023231e3c3c3c011f,
  0x10a9246a00102881ee6e7b33eb5000008004848050505460f7f0000000000807e78000037375a5050500120,
  0x10a9246a00902881ee6e7b37eb5000005003636050505460f7f000000000003d22d0000415f6464a0960121,
  0x1001247002002200e90ac350620000007000e0e030301460f7f00000000001041ff04061e1e285a2d1f0122,
  0x1011347242822243e90ac354620000002000303030301460f7f0000000000809b7802063232a02d5a3d0123,
  0x1001257002912202e90ac3546200000050019190a0a01460fff0000000000025f2d07061e1e282d5a010124,
  0x1000246200002801e26a4333634000009002b2b05010346147f00960000000144be000017331c1733400125,
  0x1028246a00002821f66e6333e34000001002b2b05010346147f0096000000027e7800002b47302b47540126,
  0x10ac246a088028a1f66e6337e34000001002b2b05010346147f009600000003b82d00003f5b443f5b680127,
  0x10ac24ea00002881e40ce1306a1000002003e2f08080246143f00000000000157b401011e14191e3c480128,
  0x10ac24ea04a02c81e40ce1346a1000005003e2f08080246143f00dd00000002b8c801013c28323c78900129,
  0x1044246200002001e008453326400000178252f0f0f04460abf00000000000121960000281414281432012a,
  0x1028246a95082001f5287910e20000007002a050a0a0046147f00ee000000106cff05055a2d1e872d1e012b],
  [0x1000276312203001e02adfb362c000009006038060504460fbf009a0000004041ff00002323322d2d32012c,
  0x1028276312a03001e02adfb762c000006006038060504460fbf009a000000418a3c0000373746414146012d,
  0x102125e702352813fc2fc130e2d00000600643308080323197f000000000014622d07104141324b4b32012e,
  0x1028666e40a43881f7ce4335e2100000400163406050446147f00b800000014622d0808373732555532012f,
  0x1029246a81102001ed28e53063400000700450501010523237f00ee0000001060b4050828281e6446320130,
  0x1029246a85102001ed28e53063400000700450501010523237f00ee00000020985a05083232288c5a3c0131,
  0x10ad646e9db06881ef6cff37e3700000700450501010523237f00ee00000030cd2d05083c3c32b46e460132,
  0x102827eb0240a881e41f41386a9000001004a4a08080046147f0000000000405bb40d0137283c37281e0133,
  0x102827eb02c0a981e41f413c6a9000000004a4a08080046147f000000000080995a0d014b3c504b3c3c0134,
  0x1008246212003003e0685d38230000003001f0905050546147f00000000004068780c0c284141282d280135,
  0x1008246212803023e0685d3c230000002001f0905050546147f000000000080a82d0c0c3c69693c4b460136,
  0x1000266212003801e0285d3822000000200393906060046147f00000000004078c80c0c4b555f28323c0137,
  0x1000266212003801e0285d38220000002003a3a06060046147f00000000004078c80c0c554b5f32283c0138,
  0x1000346312023843e82e5b78625000007004423080301460f00000000000040929606064b2f553749410139,
  0x1000346312023843e82e5b78625000006006e0c080302460ffe000000000040929606064b4955372f41013a,
  0x100126e342002101e08a43707200000833c261e07060346147f00f5000002009896030b5064412d3c32013b,
  0x1028256200082011e0aa4371724000003783c400b0b0246147f0059000000014be10303352b28352b46013c,
  0x1028256200882011e0aa6375724000006003c400b0b0246147f005900000002a84b0303534937534964013d,
  0x1044246600202403f0084133a640000005a18180c0c0523147f00e20000000458e1100a144141145a2d013e,
  0x106c24e608a02403f4086137a740000010018180c0c0523147f00e200000008af3c100a285f5f287846013f,
  0x106c246208002401e4086133274000001000c290c050246287f000000000001897d0a0a23463c2346820140,
  0x106c246208802401e4086137274000001000c290c050246287f000000000002ce3c0a0a2d5a3c2d5aaa0141,
  0x1028246a80012021e748e11062000000200560c05050046147f00980098010058ff04092d4123283c3c0142,
  0x1028646a85892021e748e31463000000000742805050046147f009800980104af9604094b69284664460143,
  0x1028246aa4892021e6c8671462000000500494905050046147f000000000020a15a09094655148c55460144,
  0x1000a7631260301bf03b4538e2800000400142f05050446147f00c20000040059ff0d0d50463c23193c0145,
  0x1000a76312e0b99bf03f453ce2900000600142f05050446147f00c200000800a43c0d0d6e5a50412d500146,
  0x1028a56b0240a81be42fc1b062d000085004d14080504460f7f00960000010055ff00003c3c3c3c3c3c0147,
  0x1028246a00002001e508e35462000000500473403030346147f00ed0000000449ff04042d2d0a2d642d0148,
  0x103a346a00026045e508e354620000003001a1a03030346147f0000000000447e780f043232463246320149,
  0x103a346a04826045ef48e754622000003001a1a03030346147f000000000084c52d0f04505064506450014a,
  0x100126e64220a901e10c435072100000300080808070323147f01200000010061be0b0b285523285532014b,
  0x100926e642a4a981e10c435472100000300080808070323147f012000000104b13c100b3c73373c7346014c,
  0x10022d6300006047e80843b1620000001001e1e0e040146147f0000000004004aff02004b28323c282d014d,
  0x10222d6300806047ea4867b5632000001001e1e0e040146147f000000000800bc2d020f6946505a464b014e,
  0x10a824fa40342a83ee6edf73e3500008800111105050146147f00d900000008a55a00003c3c5a3c7349014f,
  0x102824f600202013e0c8e570e20000084003d3d0e050246147f000000000104a55a03033c64413c64490150,
  0x1000a769a7cc3008e51b61bf228000002001a1a0a0a044619ff005100000200962d0d05555f464137460151,
  0x1000a769a7cd3028e75b639c628000000001a1a0a0a044619ff005000000008962d0d05413746555f460152,
  0x1044246200002001e5086133264000007786b0c0c0c0046147f0000000000015cbe040a292e3c2b30320153,
  0x106c246a04802001e5086137264000001006b0c0c0c0046147f0000000000029e4b040a474c3c494e6e0154,
  0x106d247a40202a01ec8cc133a64000000004b34090202460f7f0000000000046fcd0a0a23322341502b0155,
  0x106d247e48a02a01ec8cc137a64000000004b34090202460f7f000000000008a19b100a375a3755783f0156,
  0x1000a769a3483008e51be3b9628000005001a1a0a0a004614ff0000000004003aff0d044628373728280157,
  0x1028a769a7c83008e51be3bd628000004001a1a0a0a004614ff000000000800bd5a0d0478464b69463c0158,
  0x1000266ac3002101e5884350720000006001515090901461e1f012800000400632d0b05573d174d29420159,
  0x1028266ac7802101e5886354720000003001515090901461e1f012800000800c72d0b056b512b615156015a,
  0x1021247ac1002201ed0cc110624000007000404090901461e1f000000000004632d060532284b325f2d015b,
  0x1029647ac5802201ed0ce514624000007000404090901461e1f000000000008c72d060550462d647d4b015c,
  0x1044246200002001e00841332640000050021210e020146147f0000000000403dff0a0a370a50140f14015d,
  0x1044246308806001e00845b7264000009003f3f0e020146147f000000000800d53c0a0a7d64514f3c5f015e,
  0x400024631a002103e36a5b33664000008003b3b0b060046197f00f300f30001912d0000464646464646015f,
  0x1029a66b9250b81bee6edf3362500000300101005050346147f009c0000040084c80000783c28465a3c0160,
  0x1000a5671225301bf02b5930e2800000400770f0b0b0423197f00f70000000461e10707213f2d234b2c0161,
  0x1000a56712b5381bf02b5934e2800000400770f0b0b0423197f00f700000008b32d07073f53414173400162,
  0x1000a5670225381bf00b4133e28000004001a1a0b0b0423197f00c40000040061be07075a1e195a28140163,
  0x1028a56f02a5381bf40f6137e29000004002e2e0b0b0423197f00c400000410b35a0707823c198246280164,
  0x103b266242822145e80863d4730000003005e2207010546197f000000000002a9c8020b5748335344630165,
  0x1000a76312403119f03b41b8e28000001001a1a0b0b0446197f00c600000500932d0d0d505f414632410166,
  0x1029257f56b13213ff6a5d37e6c00008800692e05050323197f000000000008ae1e10103c4b4b3c82410167,
  0x1000000000000000000000000000000010017170f0f0046147f0000000000012c7d0d0d30171730175f0168,
  0x100024620a002001e00a41bb2640000070073270a060046147f00c7000000014abe0e0e3232323232320169,
  0x100024662aa82001f00a61bfa640000070073270a060046147f00c700000002bb4b0e0e505050505050016a,
  0x106c246a00002401e408653326400000100732f05020346147f0000000000014bff0a0e323719322846016b,
  0x106c246a00002401e408653327400000100732f05020346147f00000000000280780a0e464b2d463c5a016c,
  0x106c246a08802401e408653727400000100732f05020346147f000000000003c02d0a0e5a5f415a506e016d,
  0x1044246200002401e0084133264000001004b4b02020146147f0059000000108eff0a0a374a20554023016e,
  0x1044246200802411e408413726400000100212102020146147f00e200000014b23c0a0a4b5e34696837016f,
  0x1044246300802401e00b41b726400000900212102020146147f00e300000200b23c0a0a4b72346954370170,
  0x1064246b85802401e50861b726c0000070045210c020546281f00e300000011c619050a412d37825a640171,
  0x1044246300002401e00841b32640000090021210c0c044614bf0000005d00406ee10a0a412861371e2b0172,
  0x1029246a00106001ee4c41306320000010045450e0e0523287f00fa00000004592d0f0f1e28323c4b2d0173,
  0x1029246a00106001ee4c41306320000080045450e0e0523287f00fa00000020902d0f0f323c32645f410174,
  0x103b246a04906045ee4c65346320000010016160e0e0523287f00fa0000000cda2d020f506e6450875f0175,
  0x100000000000000000000000000000001001d1d0a0a052328ff00e90000001067030d083c231e5037280176,
  0x10296669a3082000ed9f613c620000001001d1d0a0a052328ff00e90000002099030d08503732644b3c0177,
  0x10296669a3882000ed9f613c620000001001d1d0a0a052328ff00e900000030d2030d085a5f468287500178,
  0x10a824699588b880e52cf994621000005001d1d0f0f052350ff000000000030d9030505643232c864500179,
  0x10a8646919883880e42c79b7261000001001d1d0f0f052350ff000000000c00d8030e0ec86432643250017a,
  0x10a8646991983880ed2c79b4621000007001d1d0f0f052350ff000000000420d7030808964b32964b50017b,
  0x1057276312907145e93b7bbd63e000000001a1a0f0f055a78fe000000000c00d3030d0f826e6e5a5050017c,
  0x1057276312907145e93b7bbd63e000001001a1a0f0f055a7800000000000300d3030d0f6e826e505a50017d,
  0x106c246918802400e42c79b727c0000010002020f0f050078ff000000000300da050a0a8c965a5a6464017e,
  0x10a92469d59068a0ef6cff946b20000000046460f0f050078ff00000000000cda0504045a645a8c9664017f,
  0x106e24697c9069a0ef6c7f376b6000003004c4c0f0f050078ff000000000108dc03020f5a965f5a96690180,
  0x1000f76192c0b908e93b59bc62c0000020020200f0f056478ff005b005b0003d7030d086464646464640181,
  0x1f004029e7e99ac0b998fc3f5bbde2d000000002e2e0f0f050078ff000000000144d7030d0d3296963296320182,
  0x10a92662c2002101e01847d872000000300414107010346141f000000000004402d0b0b372d1f4044370183,
  0x10a92662c2002101e01847d872000000300414107010346141f0000000000148d2d0b0b41372455594b0184,
  0x10a9266ac7802101e51867dc73000008300414107010346141f000000000018d02d040b554b38696d5f0185,
  0x10a93662c0112821fa4cc510ea100008500424208050346141f000000000040412d09092c3a3d2c3a2c0186,
  0x10a936eac01128a1fe4cc510ea100008500424208050346141f0000000001408e2d0109344e51344e400187,
  0x10a936eac49128a1fe4ce714eb900000500424208050346141f000000000144d12d010947686c47684c0188,
  0x10552e6280002c01ec0cc13326400000100434305020346141f000000000100422d0a0a383d283533350189,
  0x107d2e6280102c01ec0cc13326400000100434305020346141f0000000002008f2d0a0a4c5132444240018a,
  0x10fd6e6ac8902c05ec0ce13727400000100434305020346141f000000000300d22d080a656f3c585654018b,
  0x10123c6200002047e80841306200000055a3333040403460f7f00bc0000004038ff02001e1e3c1e3728018c,
  0x10123c6200002047e80841306200000053c1616040403460f7f00bc0000008071780200282850324b37018d,
  0x10123c6200802047e8084134620000005001616040403460f7f00bc0000000cac2d0200323264467855018e,
  0x10212e6290003003e02add33e200000055a6d56050200460f7f0000000000013aff000028231f282d3b018f],
  [0x10ed2e6290803803e02add37e250000053c6d56050200460f7f009e009b0008747f0a003c37473c554f0190,
  0x100000000000000000000000000000000003d3d030303460f7f01150000001036ff06062919192919250191,
  0x1029247242822201e80c4134620000000004444030303460f7f0115000000089f2d060633374133554d0192,
  0x1008246212003003e0285d3823000000100164f05050346147f0000000000043ceb0c0c22282d22412d0193,
  0x1008246212003003e0285d3823000000100164f05050364147f00000000000875780c0c313c3c31553c0194,
  0x1008246212803003e0285d3c23000000100164f05050346147f00000000000cc22d0c0c4f5f464f78500195,
  0x1001266342002101e08a437072000008378261e0f0f0346147f00f50000010044ff030b463237231e280196,
  0x100126e342802101e08a437472000008300261e07060346147f00f500000300cc4b030b697d5a37463c0197,
  0x10a8246ac5206803e768fd33630000001006868010101461e1f000000000004632d05051e1e3a287d430198,
  0x10ad246acda06883e76cfd37631000001006868010101461e1f000000000008c72d050532413a3ca5610199,
  0x1028646a85002001f768fd33e30000007000505010101461e1f000000000010632d0805582a1e762a1e019a,
  0x1028646a8d802001f768fd37e30000007000505010101461e1f000000000020c72d08058a2f1ea8343c019b,
  0x300000000000000000000000000000007003d3d030300460f7f0000000004003d7806062d1d242d1d28019c,
  0x1f30300027630280210be00b43f4720000007006b6b030300460ffe00de000008009f2d0b06694f24553b3c019d,
  0x101035630282214be80b43f4620000002004444030300460f0000de000001049f2d0206325e42325e46019e,
  0x100000000000000000000000000000002007676030303460f1f005e005e00403f7802062a1e462a1e1e019f,
  0x1011347202822843e8884134620000002002e2e030303460ffe00f500000410bc2d020666502866504601a0,
  0x1001366212003801e028dd38220000008003532060500640a7f00000000004078c80c0c5a2d5f462d3c01a1,
  0x106c246200002401e40cc5332e500000500212105020046147f00ba000000404bbe0a0a1e3c5523413701a2,
  0x106c246200a02481f40cc537af500000500212105020046147f00ba00000080b24b0a0a32557337695501a3,
  0x1000266242002101e00843d072000000900222207060046147f00ef0000010044be0b0b353e232d232d01a4,
  0x1000266242802101e00843d4720000009007a7a07060046147f00ef00000200854b0b0b4e5755463c4601a5,
  0x2004246200002401e008413326400000600723c0b020046147f00000000000149be0a0a3e392230304c01a6,
  0x206c246a06802401e588e13726400000600723c0b020046147f000000000002b04b040a525c2744536f01a7,
  0x1029376210b02813e82edf34e2500000600356505050464147f000000000080ba2d0000423c7342644b01a8,
  0x10112563326f300be02b593062800000600546a0b0b02461e7f0000000000017f7d02072c3c4622325a01a9,
  0x1013256332ef300be02b593462800000600546a0b0b02461e7f000000000002cc3c0207365a502c509601aa,
  0x102126621000b801e02acf3162500000500673208050000147f00bd0000004054be0000382c552c423701ab,
  0x102926621080b881e02adf376250000050067380805008c147f00bd00000080b23c0000603669544c4101ac,
  0x1000a56712a5311bf82b5934e28000006001a1a0b0b0423197f000000000500bb2d07076969693c3c3c01ad,
  0x10122d6710a42057f80b4134e2800000400690f04040323147f000000000008bb1e0210346947347d6401ae,
  0x1001356302302013f82add30e240000070014070505044614bf00950000004047be0000252a552a373101af,
  0x1001356302b02013f82add34e3400000700142f0505044614bf009500000080b74b00003b407040524701b0,
  0x1000a76312403019f03b41b8e28000002001a1a0f0f0446197f00c6000001004a780d0d32412d321e2d01b1,
  0x1031246600382013f2cac530e30000006006a0105050046147f0097000000404fe1100329294a2f3f3f01b2,
  0x103924e600b82013f2cac534e30000006006a0105050046147f009700000002d13c10033d4754435d6701b3,
  0x1000e769a3603008e51b63b862800000300551a0a0a004614ff00e90000001048ff0d0856181756183901b4,
  0x1028e769a3e83008e51b63bc62800000300551a0a0a004614ff00e900000410bc5a0d08744f2174594301b5,
  0x1000246b81082003e50cc1106280000050045050f0f0046147f00000000001044ff05052d0a0a5f503201b6,
  0x1000a7631240b81bf03f5bb8e29000009006f2b0f0f0046197f009a000004004e910d0d5a463c2d191401b7,
  0x100027631240a801e26b43b866400000900201e0f0f048c28fe0100006e0001ff820000410f1e05056401b8,
  0x10123c6200002047f8084130e20000004004d3304040323147f0115000000046b1e02002a5c5b2d414c01b9,
  0x1000256702872013f42b4134e2c000006002e2e0b0b00461e7f000000000410a86410076c5c236c5c3201ba,
  0x10a9246a84106001ef48e1306320000010008080e010546287f00c500000004432d040f2d282a2d463a01bb,
  0x10a9246a84106001ef48e5306320000010008080e010546287f00c500000008902d040f373252415a4401bc,
  0x10ad24eac4906a01ef4ce5346320000010008080e010546287f00c50000000cda2d040f5550665f826c01bd,
  0x10ac246a00402801e76f7b33625000004002f350f0f0546281f00ea00ea00015e32000055280528558701be,
  0x102824ea4030a881e40ce5306b10000010027500f0f0346191f000000000004484b010128233c28462801bf,
  0x10a864ee44b0e881e40fe5346bd00000100275008050346191f000000000104cc2d080146735a466e4601c0,
  0x1028246a80002001e5086510634000005002d2d050505461e7f0000000000105f8c04042a26204e484401c1,
  0x1028246a84802001e5086514634000005002d2d050505461e7f000000000020c63c040448442f76706c01c2,
  0x102924f642202a03fc8ec530e2000000678610409030546147f00f50000001072780603371e415a322801c3,
  0x10a924fe42a02a03fc8ee534e300000063c610409030546147f00f500000020cc2d10034b3c5f6e5a4601c4,
  0x10a824fe00242893f48ee130ea100000196576b080800640a7f011900000004538c0103283d32283d3001c5,
  0x10a924fe44a42893f48ee134ea100000178576b08080046147f011900000008b54b0103415655416a5301c6,
  0x1001266242a02903e08843547200000033c1a1a07070546197f000000000008a4c80b0b485a2e48644a01c7,
  0x1054346302222401e00841b32640000010072210c0c0146147f00bb000000405abe0a0a3d314238313101c8,
  0x1054346302a22401e00841b72640000010072210c0c0146147f00bb000000809c4b0a0a56455b4c454501c9,
  0x1044246200002001e8086133264000001000b210f0f0546197f0000000004006c19020a783c3232142d01ca,
  0x100026624a002101e00a47fb36400000800757507010546147f00f60000000483780e0b3c3e28323e3c01cb,
  0x10a8266a4a802981e40e67ff36500000800757507010546147f00f600000104d63c0e0b555c3c4b5c5a01cc,
  0x102d25f748b42a93f80ec537e69000004002e2e05050323147f00d9011e0044c72d0e10552d7d41784601cd,
  0x1000646132c83000e038593c62000000700052a0a0a004614ff00e900000300d31e080c5a823c73464601ce,
  0x10ad256b60882883e76eff37625000009000c1401010046147f011700000003c11e00005f50325f556e01cf,
  0x10ad64eacdb06883e76cfd3763100000700741f05010546147f00000000000cd91e0504373728828c7301d0,
  0x102926eb42a02983ecbc635472000000100662207070046147f000000000020d31e0b0b326e327d646401d1,
  0x10a8246a12803883f46dfd3ca21000002004e4e08080046193f01420000000cc71e0c0c555f5f437b4b01d2,
  0x10a8246a008128a3f64d6f14e2100008000313108080046193f000001430300c71e09095f7d53435f4b01d3,
  0x10322f631282a845ea7f43bc625000088002037060404460a1f000000000600dc1e02007378505f325501d4,
  0x1010356302822047e80b4354620000003006e0303030046147f010900000008c61e020638745f564c5601d5,
  0x1028267242802101e80ac77473000000300666605050023231f000000000020c42d0b0b413c5f826e4101d6,
  0x1028246208802001e00ac53767400000100515105050023231f000000000200c42d0e0e5f82416e3c4101d7,
  0x103934fec5a02a47fd8ce534e2000000600083403030346147f000000000020c01e02044b2d5f7d5f4b01d8,
  0x10a8246a8c802001e518e13f27000000500510c05050546147f00000000000ccf32040e3c465050826e01d9,
  0x1000a56512c43002e82b5f3762000000000585b0a0a004614ff000000000300b91e00004b875a46505501da,
  0x1029a7fb56c0ba9bfc3f69bcea90000080050500b0b0523140000000000000cd02d010d734150417d4401db,
  0x1028646a95882001f5287914e20000007002a050a0a0046147f00ee00000810c63c0805964b2891373c01dc,
  0x1028a56f02a5389bf40f6137e29000004002e2e0b0b0423197f00c400000810d22d070787412d87642d01dd,
  0x100025631aa42811f02b59bfa640000080051510a06004614fe00c700000080bb4b070e46506e46504601de,
  0x1000256512013012e03a5938620000000001a1a0b0b004614ff000000000140842d070c4d5f5b4d323201df,
  0x1000b76192c03908e13b5ffc62c000002001a1a0f0f058c50ff000000000420d2030d0d824b5f824b4b01e0,
  0x1000b76192c03908e13b5dbf62c000009001a1a0f0f058c50ff000000000504d2030d0d69695069695001e1,
  0x1000b76192e83908f37b5dbce2c000001001a1a0f0f058c50ff000000000108d2030d0d467d73467d4b01e2,
  0x1029e46996906020ef6c7db76b2000008002e2e0f0f050078ff000000000300dc1e0f0864965a78786401e3,
  0x102da4691c906c80ef6c79b76f7000006002e2e0f0f050078ff000000000300dc1e0f0a78966464785a01e4,
  0x10a8646e84a96021f648e314e300000050012120f0f05640a7f000000000300d70308096a824d6a5a5b01e5,
  0x10a824691d80a8806c2c79a46210000080070700f0f050078ff00000000000cdc0300006e50646ea06e01e6,
  0x10bb256514b37104e82b7db463a000004002e2e0f0f050078ff000000000003dc030f0778645a78649601e7,
  0x1000a76312c03109e01b43bd628000002001a1a0f0f056478fe000000000c00d2030d0d824b5578467801e8,
  0x1044366100002c00e00841b3264000001005d5d0602054628ff000000000001a51e0a0a50505050505001e9,
  0x1044366102802d08e01b41bf26c000001005d5d060205460aff000000000003d7030a0a64646464646401ea,
  0x10a925fd52b5b892fcaf5937e29000004007b7b0f0f050078ff000000000240d20310105a877d5a5a4601eb,
  0x1000266142802100e00943d4720000003001e1e0f0f036478ff009d009d0003402d0b0b64646464646401ec,
  0x120ffe7fddef375a0efff7fff77e0000070079790f0f050078ff000000000003ff03000078787878787801ed,
  0x10000000000000000000000000000000a0000000f0f050078ff000000000000ff0300000a0a0a0a0a0a01ee,
  0x10000000000000000000000000000000a0000000f0f050078ff000000000000ff0300000a0a0a0a0a0a01ef,
  0x4029e7e99ac0b998fc3f5bbde2d000000002e2e0f0f050078ff000000000108d7030d0d14b49614b43201f0,
  0x4029e7e99ac0b998fc3f5bbde2d000000002e2e0f0f050078ff000000000420d7030d0da0465aa0463201f1,
  0x4029e7e99ac0b998fc3f5bbde2d000000002e2e0f0f050078ff0000000000c0d7030d0d5a5fb45a5f3201f2,
  0x300025630280200be50be1b4620000007006b6b030300460ffe00de000000209f2d0406553b24694f3c01f3],
  [0x30006563a280200be00b41b4620000007006b6b030300460ffe00de000004109f2d08065f45245f453c01f4]]

/-- resources/bin/personal/personal_pt, 508 pieces of 44 bytes -/
def personal_pt : List Nat := List.flatten [
  [0x100000000000000000000000000000000000000000000000000000000000000000000000000000000000000,
  0x1029266242002101e088435072000000300414107010346141f000000000100402d030b41412d31312d0001,
  0x1029266242002101e088435072000000300414107010346141f0000000005008d2d030b50503c3f3e3c0002,
  0x10a9266242802101e088635473000000300414107010346141f000000000600d02d030b6464505352500003,
  0x1029246a40112821ee4cc5106230000000042420e010346141f000000000040412d0909323c412b34270004,
  0x1029246a40112821ee4cc5106230000000042420e010346141f0000000001408e2d09094150503a403a0005,
  0x103b246a409168e5ee4ce7146330000000042420e010346141f000000000300d12d0209556d644e544e0006,
  0x106c246220002c01e40cc53326500000100434302010346141f000000000010422d0a0a40322b41302c0007,
  0x106c246220002c01e40cc53326500000100434302010346141f0000000004108f2d0a0a50413a503f3b0008,
  0x10ec646a28802c81e40ce53727500000100434302010346141f000000000c00d22d0a0a69554e64534f0009,
  0x100000000000000000000000000000003001313030300460f7f00000000000135ff060614142d231e2d000a,
  0x100000000000000000000000000000003003d3d030300460f7f0000000000204878060619191e371432000b,
  0x101035630282214be80b43f4620000008000e0e030300460f7f00de00000600a02d0206505046322d3c000c,
  0x100000000000000000000000000000005001313030300460f7f00000000004034ff03061414321e2328000d,
  0x100000000000000000000000000000002003d3d030300460f7f0000000000204778030619192332192d000e,
  0x103134f242a22243e88c4354620000002004444030300460f7f00f5000004089f2d0306502d4b285041000f,
  0x10123c6200002047e8084130620000005004d33040403460f7f00000000004037ff0200232338282d280010,
  0x10123c6200002047e8084130620000005004d33040403460f7f00000000008071780200323247373c3f0011,
  0x10123c6200802047e8084134620000005004d33040403460f7f0000000000c0ac2d020046465b4b50530012,
  0x10213e6210003003e02add33e20000006003e32050500460f7f00c80000004039ff000023194823381e0013,
  0x10293e6250803003e02add37e30000005003e32050500460f7f00c800000080747f00004632613c51370014,
  0x10123c6200002047e8084130620000005003333040400460f7f0000000000403aff02001f1f461e3c280015,
  0x10123c6200802047e8084134620000005003333040400460f7f00f400000080a25a02003d3d64415a410016,
  0x100824ee00202013f488e570620000006003d160e050046147f0000000000043eff03033628372c3c230017,
  0x100824ee00a02013f488e5746200000063c3d160e050046147f000000000008935a03034f415045553c0018,
  0x1028266212003801e02cdd38221000002000909060500460a7f00ec009b008052be0c0c28325a1e37230019,
  0x1028266212803883e02cdd3c221000002000909060500460a7f009b000000c07a4b0c0c505a64375a3c001a,
  0x10a924fae0102803ed0ce51062100000200080805050046147f00d9000000105dff04041e1428554b32001b,
  0x10a924fae4902883ed0ce51462100000200080805050046147f00d900000020a35a0404372d416e644b001c,
  0x102924e200102003e8a8dd33624000001004f260501034614fe0000000000013beb0303282829342f37001d,
  0x102924e200102003e8a8dd33624000001004f260f0f034614fe00000000000275780303373738433e46001e,
  0x10ad24ea8c906883ffeefd37e35000001004f260f0f034614fe000000000003c22d0403554b4c57525a001f,
  0x102924e200102003e0a8dd33624000006004f260501034614000000000000043ceb030328283228392e0020,
  0x102924e200102003e0a8dd33624000006004f260501034614000000000000087678030337374139483d0021,
  0x10ad24ea8c906883f7eefd37e35000006004f2605010346140000000000000cc32d04034b55554d5c510022,
  0x102827639240b811e27fdfbb62d0000090062380606048c0abf0051009a000244960000413c23302d460023,
  0x1028276392c0b891e27fdfbf62d0000090062380606048c0abf0051009a0003811900005a553c49465f0024,
  0x1000246700212021e248c5906300000050012120505004614bf0098009800403fbe09094132412829260025,
  0x1000256700a12021e248c7946380000020012120505004614bf009800980440b24b09096451644b4c490026,
  0x10082763b240b811e27fdbbb625000009003838060604460abf0000000000024caa0000192d14142d730027,
  0x10082763b2c0b891e27fdbbf625000009003838060604460abf0000000000036d320000324b2d2d468c0028,
  0x10123c6200202057f88a4170e20000006002727040400460f7f00000000004036ff0203281e37232d280029,
  0x10123c6200a02057f88a4174e20000006002727040400460f7f000000000080ab5a02034b415a46504b002a,
  0x1001266242002101e088435072000000100222207070346147f0000000001004eff030b414b1e37322d002b,
  0x100126624200a901e088435072000000100222207070346147f0000000002008478030b4b552846413c002c,
  0x100126624280a901e088435472000000000222207070346147f000000000300b82d030b5a643255504b002d,
  0x1021267242002303e88cc35072000000078571b07030046147f00570056000446be0b06372d19374623002e,
  0x1021267242802303e88cc35472000000000571b07030046147f005700560018804b0b06503c1e505f3c002f,
  0x100024620200200be0894350620000006006e0e03030046147f0000000004004bbe030637282d32373c0030,
  0x101034620282214be8894354620000006006e1303030046147f0127000001408a4b03064b5a5a3c41460031,
  0x1021246a80102003ed88e11062000000500470805050046147f00ed0000004051ff04042d235f19370a0032,
  0x1021246a84902003ed88e11462000000500470805050046147f00ed00000080993204044632783250230033,
  0x1001356702302013f82add30e2400000200653505050046147f00d90000004045ff000028285a232d280034,
  0x1001356702b42013f82add34e3400000200650705050046147f00d900000080945a00004141733c46410035,
  0x106c246302102c01e80dc53326d0000025a0d0605020046147f00000000010050be0a0a3241373034320036,
  0x10ec246302902c81e80dc53726d0000013c0d0605020046147f000000000200ae4b0a0a505f554e52500037,
  0x10a834ea002028a3ec0cfd30ea100000500534805050046147f00c1000000044abe01012d23462350280038,
  0x10a834ea04a028a3ec0cfd34ea100000500534805050046147f00c100000008954b0101463c5f3c69410039,
  0x1028246200012023ea48c51063000000500121605050546143f0098009800045bbe090932463c2d4637003a,
  0x10a8246200816023ea48c71463000000500121605050546143f009800980008d54b090950645f506e5a003b,
  0x1044246200002003e009c13326400008100060b02020346147f0000000000404dff0a0a28285a283228003c,
  0x106c246200002803e00de13326500008100060b02020346147f00dd0000008083780a0a32325a414141003d,
  0x10ec24ea00a02883e40de1372e500008100060b02020346147f00dd00000030b92d010a5a46465f555a003e,
  0x1000a7631244b91bf03b45b8e2900000500271c08080346143f00f8000001004bc80d0d37695a0f1419003f,
  0x1000a7631244b91bf03b45b8e2900000500271c08080346143f00f80000020091640d0d4678691e23280040,
  0x1000a76312c4b99bf03b45bce2900000500271c08080346143f00f800000300ba320d0d5587782d32370041,
  0x10a824ea00202883e64ce1306a100000700633e08080346143f0000000000044bb401012323233250460042,
  0x10a824ea00202883e64ce1306a100008700633e08080346143f000000000008925a01013c322d4664500043,
  0x10a824ea04a02883e64ce1346a100000700633e08080346143f00000000000cc12d010155413750825a0044,
  0x1001266242002103e088435072000000300222207070346147f00000000000454ff030b1e4628234b320045,
  0x1001266242002103e088435072000000300222207070346147f0000000000089778030b2d5537325a410046,
  0x1001266242802103e088435472000000300222207070346147f00000000000cbf2d030b3c64464169500047,
  0x104524e240202403e088417326400000100401d09090546147f00f50000040069be030a6432462328280048,
  0x104524e240a02403e088417726400000100401d09090546147f00f500000800cd3c030a7850644146500049,
  0x10a8246aa5082801e74ce1106210000050005450a0a03460f7f00e50000001049ff04051e1e14645028004a,
  0x10a8246aa5082801e74ce1106210000050005450a0a03460f7f00e500000020867804052d2d23735f37004b,
  0x10a8246aa5882881e74ce1146310000050005450a0a03460f7f00e500000030b12d040541372d826e50004c,
  0x1008246200012021e248471062000000200123205050046147f00bf0000004098be090941415a375532004d,
  0x100824e200812021e248471462000000200123205050046147f00bf00000080c03c0909505069466441004e,
  0x100ca76312402409e24be5bb66c00000900140c02010046147f01170000000163be0d0a28280f41415a004f,
  0x102ca7631ac0ac89e24fe5bf66d00000900140c02010046147f00dd00000020a44b0d0a50641e6e4b5f0050,
  0x1000646132483000e038593862000000700052a0a0a004614ff00e90000010059be080c375f2d4623190051,
  0x1000646132c83000e038593c62000000700052a0a0a004614ff00e900000200a13c080c4678465f3c320052,
  0x10133ce340002247e808451062000000500273305040046147f0103000000045e2d02003e3a3c3741340053,
  0x10022c6200002047e808411062000000500303204040046147f00f40000000460be020023234b2d55230054,
  0x10022c6200a02047f8084114e2000000500303204040046147f00f4000000089e2d02003c3c64466e3c0055,
  0x1044246200002c03e00841b3264000008005d2f05020046147f00000000040064be0a0a462d2d372d410056,
  0x1044246208802c03e00841b7264000008005d2f05020046147f000000000800b04b0e0a5f464650465a0057,
  0x100824ea00282803f6ead970e20000006003c010b0b0046147f005c000000015abe03033228193250500058,
  0x102824ee00a82883f6eed974e21000006003c010b0b0046147f005c000000059d4b03036441324b69690059,
  0x1004246200282401e0084133264000006005c4b09090546147f00590058001061be0a0a192d2864411e005a,
  0x100424e208a82401f0084137264000006005c4b09090546147f005900580020cb3c0e0a2d5546b45f32005b,
  0x1000a567002d211bf08b4970e20000006001a1a0b0b0346147f0000000001005fbe03072364501e231e005c,
  0x1000a5e7003d291bf08b4970e20000006001a1a0b0b0346147f0000000002007e5a030737735f2d322d005d,
  0x1028a5e700bda99bf08f5974e21000006001a1a0b0b0346147f000000000300be2d03074b826e3c413c005e,
  0x10a8646ba5286001f508e510e300000070005450a0a0046197f0000000000106c2d04052d1e46a02d23005f,
  0x1000a7631240a81bf01f41b8e29000002006c0f08080046147f00000000040066be0d0d5a2b2a2d303c0060,
  0x1000a76312c0a89bf01f41bce29000002006c0f08080046147f000000000800a54b0d0d7349434649550061,
  0x102d247a40002e03e40cc133264000000004b3409090046147f00000000000473e10a0a1919325a691e0062,
  0x102d247a40802e03e40cc137264000080004b3409090046147f000000000008ce3c0a0a32324b7382370063],
  [0x1000246032083002f0285938a2000000000092b0a0a004614ff00000000004067be0c0c373764321e280064,
  0x1000246032883002f028593ca2000000000092b0a0a004614ff000000000080963c0c0c50508c46323c0065,
  0x1008a7634208210be099435872000000978222207070546147f000000000010625a0d0b2d3c2850283c0066,
  0x1008a7634288210be099435c72000000200222207070546147f000000000200d42d0d0b417d37555f5f0067,
  0x10a8246ac0002a03ef4ce513621000005001f4501010046147f01020000001057be04043228235f32320068,
  0x10a8246ac4802a83ef4ce517621000005001f4501010046147f0102000000207c4b040450322d6e503c0069,
  0x10a824ea04002883e40c61306a10000050078070808004619000000000000088b2d01016e2357357832006a,
  0x10a8246a0400a883e40c61306a10000050059330808004619000000000008008c2d01016e234c4f6932006b,
  0x10ad256b40802803e76eff37625000009000c1401010046147f0117000000027f2d00004b3c1e4b375a006c,
  0x1000246622292003f2ea5930e20000006001a1a0b0b0046147f00e40000001072be03032d3c235f4128006d,
  0x1000246622a92003f2ea5934e20000006001a1a0b0b0046147f00e400000020ad3c030346553c785a41006e,
  0x10a824eac5206003e768fd3363000000700451f05010546147f000000000010877805041e1e195f5550006f,
  0x10ad24eacdb06883e76cfd3763100000700451f05010546147f000000000008cc3c05042d2d287882690070,
  0x10a8276b92c0b819e76f7fbf66d00000900201e0606048c28fe00e7006e0002ff1e00006923320505fa0071,
  0x1021266342802103e0b843547200000015a662207070046147f000000000010a62d0b0b28643c7337410072,
  0x10ad246a0890a883ef6eff376750000059671300101004614fe000000000002af2d000050285a505f690073,
  0x1044646200006401e00841332640000010061210e020046147f00eb0000010053e10a0a19463c46281e0074,
  0x1044646200806401e00841372640000010061260e020046147f00eb000001109b4b0a0a2d5f555f41370075,
  0x104424e200002001e00841332640000000029210c0c0046147f0000000000046fe10a0a32233f3c432d0076,
  0x104424e200802001e00841372640000000029210c0c0046147f000000000008aa3c0a0a504144415c500077,
  0x1044646132402400e019593b264000085001e230909054614ff005b005a00406ae10a0a374655372d1e0078,
  0x1044e7613ac02408e019593f264000006001e230909054614ff005b005a0080cf3c0d0a556473554b3c0079,
  0x1000a76312e0b99bf83f5bbce29000009006f2b08080046197f009a00000800882d0d0d78645a412d28007a,
  0x1031347240822247e80c413462000000300654403030046197f000000000004bb2d0206503769506e46007b,
  0x1000a7630ae0a98bf01f413fa6d000000006c0c0808004619fe009900990200892d0d0e5f735f233241007c,
  0x10a8246212803883e02d5d3c22100008200090908080046193f0142000000809c2d0c0c555f69395341007d,
  0x10a82462008128a3e24d451462100000000313108080046193f014300000200a72d090955645d395f41007e,
  0x10a9247ac4802a83e40ce1346a100000500683403030546197f000000000008c82d0606463755647d41007f,
  0x10ac246a04a02001e7687f37624000005005316050505461400000000000044d32d000046286e5f644b0080,
  0x1000000000000000000000000000000005a21210e0c0546057f00000000004014ff0a0a140f50370a140081,
  0x106c24661ca06401f3487937a740000013c16160e0c0546057f000000000008d62d020a643c514f7d5f0082,
  0x106c256208806401e0295db7274000001004b0b02010546287f000000000002db2d0e0a5f553c5055820083,
  0x1000000000000000000000000000000060007070d0d004614ff0101011200013d2300003030303030300084,
  0x1000246200002001e00ac530620000005005b3205050046231f0000000004005c2d0000412d373237370085,
  0x106c246200802401e00ac537674000001000b0b05050046231f000000000002c42d0a0a5f6e413c41820086,
  0x1028246212803001e02add3c630000002000a0a05050046231f000000000080c52d0c0c5f6e823c41410087,
  0x1028246200812021e24ac53463000000000121205050046231f000000000008c62d09096e5f413c82410088,
  0x1000a56112c03002e82b5f376200000090058240a0a004614ff000000000100822d00004b5528463c410089,
  0x1064246aa1002403e5084133264000001004b21090200461e1f000000000010632d0a05375a23642823008a,
  0x10e4246aa5802403e5084137264000001004b21090200461e1f000000000020c72d0a054673377d3c46008b,
  0x1064246a81002403e508c173264000005000421090200461e1f000000000010632d0a052d37375a501e008c,
  0x10e5247ac5802403ed0cc177264000005000421090200461e1f000000000008c72d0a0546415069733c008d,
  0x103a246a85a06047ff486534e32000006002e4504040546231f000000000080ca2d02054b3c82416950008e,
  0x10ac246a00c02881e76f7b37625000004002f1101010546281f00ea00ea00029a1900006e411e416ea0008f,
  0x10323c6008802044e9184137674000001002e2e0f0f052350ff000000000c00d703020e7d5f5564555a0090,
  0x10323c6012803044e928593c630000002002e2e0f0f052350ff000000000300d803020c5a7d64555a5a0091,
  0x10323c6000812064eb4843b4630000002002e2e0f0f052350ff000000000300d9030209557d5a5a645a0092,
  0x1044246210006001e2685db7664000001003d3d0e020523287f00eb00000004432d0f0f3232322d40290093,
  0x1044246210006001e2685db7664000001003d3d0e020523287f00eb00000008902d0f0f46464641543d0094,
  0x107f246a148068c5ef6c7db76770000050027270e020523287f00eb0000000cda2d020f6464505f865b0095,
  0x10a8a7e91ec5b998ff7f7fbfeed000006002e2e0f0f050078ff000000000300dc030d0d5a9a825a6e6a0096,
  0x10fffffffffffffffffffffffff000009001c1c0f0f036478ff009d009d0003402d0d0d6464646464640097,
  0x1001266242002101e01847d872000000300414107010346141f000000000400402d0b0b41312d41312d0098,
  0x1029266242002101e01847d872000000300414107010346141f0000000004108d2d0b0b503f3c503e3c0099,
  0x10a9266242802101e01867dc72000000300414107010346141f000000000810d02d0b0b645350645250009a,
  0x1001246200012021ea48c11062000000200424205050346141f000000000040412d0909323c412b3427009b,
  0x1029246200012021ea4cc11063100000200424205050346141f0000000001408e2d09094150503a403a009c,
  0x10a9246a209128a1ee4ce31463100000200424205050346141f000000000300d12d0909556d644e544e009d,
  0x1045246a40102801ec0cc53326500000100434302010346141f000000000004422d0a0a302c2b404132009e,
  0x106d246a40102801ec0cc53327500008100434302010346141f0000000000148f2d0a0a3f3b3a505041009f,
  0x10ed246a48906881ec0ce53727700000100434302010346141f000000000018d22d0a0a534f4e64695500a0,
  0x1005366200103803e06ecf31625000005003332050500460f7f009b0000000439ff00002d2314222e2300a1,
  0x102d366200903883e06edf37625000005003332050500460f7f009e009b0080745a0000372d5a404c5500a2,
  0x10122d6300422047e81b41306200000055a330f040400460f7f0000000000013aff02003824321e1e3c00a3,
  0x10122d6300c22047e81b41346200000053c330f040400460f7f000000000002a25a0200604c4632326400a4,
  0x100034624202a843e81cc3d8621000000003044030304460f7f00000000040036ff02065028371e142800a5,
  0x102834624282a8c3e81cc3dc621000000003044030304460f7f000000000800865a02066e375532233700a6,
  0x100024e202002003e089c350620000003000f44030304460f7f00000000000436ff030628281e283c2800a7,
  0x100024e202802003e089c354620000000000f44030304460f7f000000000008865a03063c3c28465a4600a8,
  0x10123c7600a02057f88a4174e20000006002727040400460f7f0000000000c0cc5a0203504682505a5500a9,
  0x1044246212003401e028593326400000100230a0c0c0546147f00e3000000015abe0c0a38384326264b00aa,
  0x1044246212803401e028593726400000100230a0c0c0546147f00e3000000029c4b0c0a4c4c433a3a7d00ab,
  0x1000266212003801e0285d382200000020009090f0f00460a7f009b000000402abe0c0c23233c0f281400ac,
  0x1000276312402801e27bc7b86240000090062380f0f048c0abf0051009a040025960000372d0f1c193200ad,
  0x1000276312402801e27bc3b86240000890038380f0f04460abf00000000000127aa000014280f0f1e5a00ae,
  0x1020276312002801e27b43b86240000080020370f0f04460a1f0000000004004abe000041281441142300af,
  0x103227631282a845ea7f43bc625000008002037060404460a1f000000000800724b020069502855283700b0,
  0x1000bf631202204fe81b437862800000300301c04040046147f00000000010049be020d2d46462d322800b1,
  0x1012bf631282204fe81b437c62800000300301c04040046147f000000000140ab4b020d465f5f464b4100b2,
  0x1000246212003001e0285d3822000000800090905010346147f0000000001003beb0c0c2d412328283700b3,
  0x1028246212003801e02c5d3822100000900090905010346147f00000000020075780c0c3c502d37374600b4,
  0x10a8246212803881e02c5d3c22100000200090905010346147f000000000300c22d0c0c5a73374b4b5a00b5,
  0x100126624280a901e08843d472000000300222207070346147f000000000c00b82d0b0b645a3255504b00b6,
  0x106c266200002801e00cc5332650000013c252f060204460a7f0000000000023abe0a0a32142832144600b7,
  0x106c266200802881e00cc53726500000100252f060204460a7f000000000003994b0a0a50323250326400b8,
  0x1028246b85082803f50ce110e290000050045050a0a0046147f00000000002087410505411e1e73644600b9,
  0x106c246200a02883e00de13726500008300060b02020346147f00dd00000c00b92d0a0a645a464b4b5a00ba,
  0x1000366242022101e808435072000000900662207060346147f0000000004004aff020b37233228232300bb,
  0x1000366242022101e808435072000000300662207060346147f0000000000808878020b412d50322d3700bc,
  0x1000366242822101e808435472000000100662207060346147f0000000000c0b02d020b55376e46374b00bd,
  0x1029376210302813e82edf30e2500000600353205050446147f0000000000405e2d000037285537463700be,
  0x1001266242002101e08843d8720000002005e2207070346147f00c00000010034eb0b0b1e1e1e1e1e1e00bf,
  0x1001266242802101e08843dc720000002005e2207070346147f00000000020092780b0b55691e374b4b00c0,
  0x1010356202022047e80b4350620000000780e0303030046147f010900000040934b02062d4b5f2d414100c1,
  0x1064246202002001e188e533264000001780b0605020046147f00000000000134ff040a19190f2d2d3700c2,
  0x106c246a06802881e58ce5372650000013c0b0605020046147f000000000002895a040a41412355555f00c3,
  0x1001a76302802009e01bc53c628000006001c1c05050046231f000000000200c52d0d0d5f826e3c414100c4,
  0x1001256702a02011f00bc534e20000004001c1c05050023231f000000000800c52d1010823c416e415f00c5,
  0x10122d6710242057f80b4130e2800000400690f04040323147f0000000000406b1e02102a555b2a553c00c6,
  0x102ca7631ac0ac89e24fe5bf66d00000900140c02010046147f00dd00000c00a4460d0a6e641e504b5f00c7],
  [0x1000a5671225301bf82b5930e28000007001a1a0b0b0423197f000000000400932d07075555553c3c3c00c8,
  0x100000000000000000000000000000084001a1a0f0f004628ff0000000001043de10d0d30483030483000c9,
  0x1000000000000000000000000000000010017170b0b0046147f000000000002b12d0d0d3a21213a21be00ca,
  0x1028a7631240310be03b7d3862800000200302705050046147f009c00000200953c0d00415a5541504600cb,
  0x1028246aa0282001e518e35862000000700050503030046147f0000000000103cbe060623230f5a413200cc,
  0x1028646aa1a82001e518e35c62000000600050503030046147f000000000020764b08063c3c288c5a4b00cd,
  0x102825ebb0003043e66aff3362c00000200322005050046147f0000000000017dbe000041412d46466400ce,
  0x103934fec5202a47fd8ce530e2000000600083403030346147f0000000000106c3c0204412355694b4100cf,
  0x10a9646fa5a86001f508e514e300000070005450a0a0046197f00e900000020c419040841371ec8554b00d0,
  0x1028246210202823f2eefb30eb50000090032160605044614bf0000000000043fbe000028281e32503c00d1,
  0x10a8246a14a028a3f6eeff34eb5000006005f160605044614bf000000000008b24b00003c3c2d4b785a00d2,
  0x104424e230282401e0aa4133a640000070021260c0c0046147f00f500000004642d030a3737554b5f4100d3,
  0x1039747240822a47e90c413462000000000654403030046197f000000000008c819080650374164824600d4,
  0x1028246aa7002001e588e19062000000200520503030346147f009b009b041050be0506e60a05e60a1400d5,
  0x1029246a44902883ec0ce1346a1000001003e4403030546197f000000000008c82d01065f28554b7d5000d6,
  0x102d25f748342a13f80ec533e6900008400332705050323147f00d9011e0040843c0e104b2373375f3700d7,
  0x1029246a40302803fc0ce130eb1000085005f3505050046147f0000000000047c78000032322832503c00d8,
  0x10a9246a4cb02883fc0ce134eb1000005005f3e05050046147f000000000008bd3c00004b4b374b825a00d9,
  0x1020246a00012021e65841186200000000031280b0b0046147f0000000001004ebe090928461428282800da,
  0x1028246aa5892021e758631c6200000000031280b0b0046147f0000000000209a4b050950501e78323200db,
  0x1028246a80002001e518e13b27000000500510c05050546147f0000000000044ee1040e1e1e3228323200dc,
  0x1028246a8c802001e518e13f27000000500510c05050546147f000000000005a04b040e3c3c3250646400dd,
  0x102c246a85082401e51be1bb66c000009001e370902044614bf00ee00000410713c050a55412355373700de,
  0x1044246210003403e24941377240000070061370c020046147f0000000001004ebe0a0a23414123412300df,
  0x1044646210a03503e2c941377240000000061150c020046147f000000000104a44b0a0a4b692d4b694b00e0,
  0x10122c6208402803e80c413326500000000374805020446147f000000000040b72d020e2d414b2d372d00e1,
  0x1054246a00802401ec086137364000006000b2102020546197f000000000800a819020a8c504646284100e2,
  0x10336c7ec2202047fd084110e3000000700053304040546197f000000000020a81902084628468c504100e3,
  0x1020256600252033f2ca4710e3000000400123005050523147f000000000100727809103250411e3c2d00e4,
  0x1028256600a52033f2ca4714e3000000400123005050523147f000000000200cc2d0910506e5f325a4b00e5,
  0x1044646200806401e00841372640000010061210e020046147f00eb00000504cf2d0f0a5f5f555f5f4b00e6,
  0x1028246a80002001e508651063000000100353505050046147f00b9000000017c7804042828283c3c5a00e7,
  0x102824eaa5802001e508651463000000700050505050046147f00b900000014bd3c04043c3c3278785a00e8,
  0x1000a56112c03002e82b5f376200000000058240a0a004614ff000000000200b42d00005f693c5a505500e9,
  0x1000a5631280310be03b7f3863800000500771605050546147f000000000004a52d00004155553e5f4900ea,
  0x10000000000000000000000000000000800651405050446147f0000000000406a2d00002d144b23143700eb,
  0x1028246a00002003e00c61306a000000600503e0f0f004619000000000000045b4b010123232323232300ec,
  0x1028246a24002003e90ce1306a00000050065160808004619000000000008008a2d01016e23465f5f3200ed,
  0x1000a7630a60280be01b413b26c000009006c0c0f0f004619fe009900990100572d0d0e4155410f1e2d00ee,
  0x1020246212003803e02d59382210000820009090f0f0046193f0142000000406a2d0c0c37415f253f2d00ef,
  0x1020246200012823e24d45106210000800031310f0f0046193f014300000040752d0909374653254b2d00f0,
  0x102c246bb0802881e52e7f3762500000900712f0505054614fe002100210020c82d000046286469505f00f1,
  0x10a8276b9ac0b899e76f7fbf66d00000900201e0606048c28fe00e7006e0003ff1e0000874b370a0aff00f2,
  0x10a9246112803000e13add3c638000002002e2e0f0f052350ff000000000180d8030c0c6473734b555a00f3,
  0x10a9246106812020e35ac734638000005002e2e0f0f052350ff000000000009d90309094b5a6455737300f4,
  0x10e5246108802400e11ac53767c000001002e2e0f0f052350ff000000000810d7030a0a735a55734b6400f5,
  0x1020246e85202001f50ce134e20000003003e3e01010523287f000000000004432d0405322d2932403200f6,
  0x1020246e85202001f50ce134e20000007003d3d01010523287f000000000008902d040546413346544600f7,
  0x10ad246e9db06881ff6cfd37e37000003002d2d01010523287f00000000000cda2d1005645f3d6e866400f8,
  0x107e25611a80744ce93b7dff67c000008002e2e0f0f050078ff000000000c00dc03020d9a5a6e825a6a00f9,
  0x103a2d6112813064eb7b7bfc638000000002e2e0f0f050078ff002c002c0c00dc0302099a6e5a5a826a00fa,
  0x1001b761d2823908e93b43fc62c000003001e1e0f0f036478ff009d009d0003402d0b0d64646464646400fb,
  0x1029266a4200a901ec0cc7d07210000030041410e010346141f000000000040412d0b0b374146232d2800fc,
  0x1029267a4200ab01ec0cc7d07210000030041410e010346141f0000000000808d2d0b0b41555f2d413200fd,
  0x10a9267a4280eb81ec0ce7d47330000030041410e010346141f0000000000c0d02d0b0b55697841554600fe,
  0x1029246a40112021ee48c11062000000000424205050346141f000000000100412d090932462d283c2d00ff,
  0x102924ea401128a1ee4cc1106a100000000424205050346141f0000000001048e2d01093c55373c553c0100,
  0x10a924ea449128a1ee4ce3146b100000000424205050346141f00000000000cd12d0109466e504678500101,
  0x106c246a00002001e408c53326400000100434302010346141f000000000004412d0a0a3232283246320102,
  0x106c246a80002801e40ce53326400000100434302010346141f0000000000088f2d040a463c324655460103,
  0x10ec246a8c802881e40ce53727500000100434302010346141f00000000000cd22d040a5a553c5a6e640104,
  0x1020246600242013f00ac530e30000007005f32050500460f7f00970000000437ff10101e1e232337230105,
  0x1028246600a42013f00ac534e30000007005f16050500460f7f009700000008807f10103c3c46465a460106,
  0x1025266210003803e02add33624000005005235050500460f7f009b000000403cff0000291e3c291e260107,
  0x102d266210903803e02add37634000008005235050500460f7f009e009b0080805a00003d32643d464e0108,
  0x100000000000000000000000000000000001313030300460f7f00000000000136ff06061e1414232d2d0109,
  0x100000000000000000000000000000008003d3d030300460f7f0000000000204878060619190f372332010a,
  0x1010346202822143e80b43d4620000002004444030300460f7f012700000300a12d0206325a4132463c010b,
  0x100000000000000000000000000000006003d3d030300460f7f0000000000204878060619190f372332010c,
  0x1010346202822143e88b435c620000003001313030300460f7f012700000c00a12d03065a324146323c010d,
  0x1004266242002103e0084373764000003002c21070203460f7f0000000004004aff0b0a32281e1e1e28010e,
  0x106c26624200a903e00c4373764000003002c21070203460f7f0000000008008d780b0a463c3232323c010f,
  0x10ec26624280a983e00c4377765000003002c21070203460f7f000000000c00b52d0b0a645a464646500110,
  0x1020266242082101e00ac350720000005003022070503460f7f0000000000104aff0b0b1e1e1e3228280111,
  0x1029266f422c2903f40ec354720000005003022070503460f7f0000000000088d78100b283c3c2846460112,
  0x1039267f42ae2983fc0ec354720000005003022070503460f7f00000000000cb52d100b3c5a503c645a0113,
  0x10123c6200002047e8084130620000001003e3e040403460f7f00c3000000403bc802001e1e551e37280114,
  0x10123c6200802047e8084134620000001003e3e040403460f7f00c300000080a22d020032327d3c553c0115,
  0x10123c6200002447e828413326400000800333304020046147f00000000004040be020a1e37551e1e280116,
  0x10163c6200a02c47e828413726400000200333304020046147f000000000020a42d020a46554164323c0117,
  0x1000a7631240381bf03b49b8e2800000800241c0b0b0523147f00000000010046eb0d0d232d2819191c0118,
  0x1000a7631240381bf03b49b8e2800000800241c0b0b0523147f0000000002008c780d0d3741322323260119,
  0x1000a76312c0399bf03b49bce2800000800241c0b0b0523147f000000000300d02d0d0d737d50414144011a,
  0x1000246302002003e00a4373624000001002121030200460f7f0000000000403fc80a06343241201e28011b,
  0x1010346302822143e80a4377624000001001616030200460f7f00de00000500804b020652503c3e3c46011c,
  0x1000266242002111e08843d0720000005785a1b070602460f7f00be0000000141ff0b0b3c28233c283c011d,
  0x1029266a4680a991e48c47d47a1000003005a1b070602460f7f00be00000008a55a010b3c3c4650823c011e,
  0x1029246a00102801ee6e5b336a5000005003636050505460f7f00000000000153ff000023231e3c3c3c011f,
  0x10a9246a00102881ee6e7b33eb5000008004848050505460f7f0000000000807e78000037375a5050500120,
  0x10a9246a00902881ee6e7b37eb5000005003636050505460f7f000000000003d22d0000415f6464a0960121,
  0x1001247002002200e90ac350620000007000e0e030301460f7f00000000001041ff04061e1e285a2d1f0122,
  0x1011347242822243e90ac354620000002000303030301460f7f0000000000809b7802063232a02d5a3d0123,
  0x1001257002912202e90ac3546200000050019190a0a01460fff0000000000025f2d07061e1e282d5a010124,
  0x1000246200002801e26a4333634000009002b2b05010346147f00960000000144be000017331c1733400125,
  0x1028246a00002821f66e6333e34000001002b2b05010346147f0096000000027e7800002b47302b47540126,
  0x10ac246a088028a1f66e6337e34000001002b2b05010346147f009600000003b82d00003f5b443f5b680127,
  0x10ac24ea00002881e40ce1306a1000002003e2f08080246143f00000000000157b401011e14191e3c480128,
  0x10ac24ea04a02c81e40ce1346a1000005003e2f08080246143f00dd00000002b8c801013c28323c78900129,
  0x1044246200002001e008453326400000178252f0f0f04460abf00000000000121960000281414281432012a,
  0x1028246a95082001f5287910e20000007002a050a0a0046147f00ee000000106cff05055a2d1e872d1e012b],
  [0x1000276312203001e02adfb362c000009006038060504460fbf009a0000004041ff00002323322d2d32012c,
  0x1028276312a03001e02adfb762c000006006038060504460fbf009a000000418a3c0000373746414146012d,
  0x102125e702352813fc2fc130e2d00000600643308080323197f000000000014622d07104141324b4b32012e,
  0x1028666e40a43881f7ce4335e2100000400163406050446147f00b800000014622d0808373732555532012f,
  0x1029246a81102001ed28e53063400000700450501010523237f00ee0000001060b4050828281e6446320130,
  0x1029246a85102001ed28e53063400000700450501010523237f00ee00000020985a05083232288c5a3c0131,
  0x10ad646e9db06881ef6cff37e3700000700450501010523237f00ee00000030cd2d05083c3c32b46e460132,
  0x102827eb0240a881e41f41386a9000001004a4a08080046147f0000000000405bb40d0137283c37281e0133,
  0x102827eb02c0a981e41f413c6a9000000004a4a08080046147f000000000080995a0d014b3c504b3c3c0134,
  0x1008246212003003e0685d38230000003001f0905050546147f00000000004068780c0c284141282d280135,
  0x1008246212803023e0685d3c230000002001f0905050546147f000000000080a82d0c0c3c69693c4b460136,
  0x1000266212003801e0285d3822000000200393906060046147f00000000004078c80c0c4b555f28323c0137,
  0x1000266212003801e0285d38220000002003a3a06060046147f00000000004078c80c0c554b5f32283c0138,
  0x1000346312023843e82e5b78625000007004423080301460f00000000000040929606064b2f553749410139,
  0x1000346312023843e82e5b78625000006006e0c080302460ffe000000000040929606064b4955372f41013a,
  0x100126e342002101e08a43707200000833c261e07060346147f00f5000002009896030b5064412d3c32013b,
  0x1028256200082011e0aa4371724000003783c400b0b0246147f0059000000014be10303352b28352b46013c,
  0x1028256200882011e0aa6375724000006003c400b0b0246147f005900000002a84b0303534937534964013d,
  0x1044246600202403f0084133a640000005a18180c0c0523147f00e20000000458e1100a144141145a2d013e,
  0x106c24e608a02403f4086137a740000010018180c0c0523147f00e200000008af3c100a285f5f287846013f,
  0x106c246208002401e4086133274000001000c290c050246287f000000000001897d0a0a23463c2346820140,
  0x106c246208802401e4086137274000001000c290c050246287f000000000002ce3c0a0a2d5a3c2d5aaa0141,
  0x1028246a80012021e748e11062000000200560c05050046147f00980098010058ff04092d4123283c3c0142,
  0x1028646a85892021e748e31463000000000742805050046147f009800980104af9604094b69284664460143,
  0x1028246aa4892021e6c8671462000000500494905050046147f000000000020a15a09094655148c55460144,
  0x1000a7631260301bf03b4538e2800000400142f05050446147f00c20000040059ff0d0d50463c23193c0145,
  0x1000a76312e0b99bf03f453ce2900000600142f05050446147f00c200000800a43c0d0d6e5a50412d500146,
  0x1028a56b0240a81be42fc1b062d000085004d14080504460f7f00960000010055ff00003c3c3c3c3c3c0147,
  0x1028246a00002001e508e35462000000500473403030346147f00ed0000000449ff04042d2d0a2d642d0148,
  0x103a346a00026045e508e354620000003001a1a03030346147f0000000000447e780f043232463246320149,
  0x103a346a04826045ef48e754622000003001a1a03030346147f000000000084c52d0f04505064506450014a,
  0x100126e64220a901e10c435072100000300080808070323147f01200000010061be0b0b285523285532014b,
  0x100926e642a4a981e10c435472100000300080808070323147f012000000104b13c100b3c73373c7346014c,
  0x10022d6300006047e80843b1620000001001e1e0e040146147f0000000004004aff02004b28323c282d014d,
  0x10222d6300806047ea4867b5632000001001e1e0e040146147f000000000800bc2d020f6946505a464b014e,
  0x10a824fa40342a83ee6edf73e3500008800111105050146147f00d900000008a55a00003c3c5a3c7349014f,
  0x102824f600202013e0c8e570e20000084003d3d0e050246147f000000000104a55a03033c64413c64490150,
  0x1000a769a7cc3008e51b61bf228000002001a1a0a0a044619ff005100000200962d0d05555f464137460151,
  0x1000a769a7cd3028e75b639c628000000001a1a0a0a044619ff005000000008962d0d05413746555f460152,
  0x1044246200002001e5086133264000007786b0c0c0c0046147f0000000000015cbe040a292e3c2b30320153,
  0x106c246a04802001e5086137264000001006b0c0c0c0046147f0000000000029e4b040a474c3c494e6e0154,
  0x106d247a40202a01ec8cc133a64000000004b34090202460f7f0000000000046fcd0a0a23322341502b0155,
  0x106d247e48a02a01ec8cc137a64000000004b34090202460f7f000000000008a19b100a375a3755783f0156,
  0x1000a769a3483008e51be3b9628000005001a1a0a0a004614ff0000000004003aff0d044628373728280157,
  0x1028a769a7c83008e51be3bd628000004001a1a0a0a004614ff000000000800bd5a0d0478464b69463c0158,
  0x1000266ac3002101e5884350720000006001515090901461e1f012800000400632d0b05573d174d29420159,
  0x1028266ac7802101e5886354720000003001515090901461e1f012800000800c72d0b056b512b615156015a,
  0x1021247ac1002201ed0cc110624000007000404090901461e1f000000000004632d060532284b325f2d015b,
  0x1029647ac5802201ed0ce514624000007000404090901461e1f000000000008c72d060550462d647d4b015c,
  0x1044246200002001e00841332640000050021210e020146147f0000000000403dff0a0a370a50140f14015d,
  0x1044246308806001e00845b7264000009003f3f0e020146147f000000000800d53c0a0a7d64514f3c5f015e,
  0x400024631a002103e36a5b33664000008003b3b0b060046197f00f300f30001912d0000464646464646015f,
  0x1029a66b9250b81bee6edf3362500000378101005050346147f009c0000040084c80000783c28465a3c0160,
  0x1000a5671225301bf02b5930e2800000400770f0b0b0423197f00f70000000461e10707213f2d234b2c0161,
  0x1000a56712b5381bf02b5934e2800000400770f0b0b0423197f00f700000008b32d07073f53414173400162,
  0x1000a5670225381bf00b4133e28000004001a1a0b0b0423197f00c40000040061be07075a1e195a28140163,
  0x1028a56f02a5381bf40f6137e29000004002e2e0b0b0423197f00c400000410b35a0707823c198246280164,
  0x103b266242822145e80863d47300000033c5e2207010546197f000000000002a9c8020b5748335344630165,
  0x1000a76312403119f03b41b8e28000001001a1a0b0b0446197f00c600000500932d0d0d505f414632410166,
  0x1029257f56b13213ff6a5d37e6c00008800692e05050323197f000000000008ae1e10103c4b4b3c82410167,
  0x1000000000000000000000000000000010017170f0f0046147f0000000000012c7d0d0d30171730175f0168,
  0x100024620a002001e00a41bb2640000070073270a060046147f00c7000000014abe0e0e3232323232320169,
  0x100024662aa82001f00a61bfa640000070073270a060046147f00c700000002bb4b0e0e505050505050016a,
  0x106c246a00002401e408653326400000100732f05020346147f0000000000014bff0a0e323719322846016b,
  0x106c246a00002401e408653327400000100732f05020346147f00000000000280780a0e464b2d463c5a016c,
  0x106c246a08802401e408653727400000100732f05020346147f000000000003c02d0a0e5a5f415a506e016d,
  0x1044246200002401e0084133264000001004b4b02020146147f0059000000108eff0a0a374a20554023016e,
  0x1044246200802411e408413726400000100212102020146147f00e200000014b23c0a0a4b5e34696837016f,
  0x1044246300802401e00b41b726400000900212102020146147f00e300000200b23c0a0a4b72346954370170,
  0x1064246b85802401e50861b726c0000070045210c020546281f00e300000011c619050a412d37825a640171,
  0x1044246300002401e00841b32640000090021210c0c044614bf0000005d00406ee10a0a412861371e2b0172,
  0x1029246a00106001ee4c41306320000010045450e0e0523287f00fa00000004592d0f0f1e28323c4b2d0173,
  0x1029246a00106001ee4c41306320000080045450e0e0523287f00fa00000020902d0f0f323c32645f410174,
  0x103b246a04906045ee4c65346320000010016160e0e0523287f00fa0000000cda2d020f506e6450875f0175,
  0x100000000000000000000000000000001001d1d0a0a052328ff00e90000001067030d083c231e5037280176,
  0x10296669a3082000ed9f613c620000001001d1d0a0a052328ff00e90000002099030d08503732644b3c0177,
  0x10296669a3882000ed9f613c620000001001d1d0a0a052328ff00e900000030d2030d085a5f468287500178,
  0x10a824699588b880e52cf994621000005001d1d0f0f052350ff000000000030d9030505643232c864500179,
  0x10a8646919883880e42c79b7261000001001d1d0f0f052350ff000000000c00d8030e0ec86432643250017a,
  0x10a8646991983880ed2c79b4621000007001d1d0f0f052350ff000000000420d7030808964b32964b50017b,
  0x1057276312907145e93b7bbd63e000000001a1a0f0f055a78fe000000000c00d3030d0f826e6e5a5050017c,
  0x1057276312907145e93b7bbd63e000001001a1a0f0f055a7800000000000300d3030d0f6e826e505a50017d,
  0x106c246918802400e42c79b727c0000010002020f0f050078ff000000000300da050a0a8c965a5a6464017e,
  0x10a92469d59068a0ef6cff946b20000000046460f0f050078ff00000000000cda0504045a645a8c9664017f,
  0x106e24697c9069a0ef6c7f376b6000003004c4c0f0f050078ff000000000108dc03020f5a965f5a96690180,
  0x1000f76192c0b908e93b59bc62c0000020020200f0f056478ff005b005b0003d7030d086464646464640181,
  0x1f004029e7e99ac0b998fc3f5bbde2d000000002e2e0f0f050078ff000000000144d7030d0d3296963296320182,
  0x10a92662c2002101e01847d872000000300414107010346141f000000000004402d0b0b372d1f4044370183,
  0x10a92662c2002101e01847d872000000300414107010346141f0000000000148d2d0b0b41372455594b0184,
  0x10a9266ac7802101e51867dc73000008300414107010346141f000000000018d02d040b554b38696d5f0185,
  0x10a93662c0112821fa4cc510ea100008500424208050346141f000000000040412d09092c3a3d2c3a2c0186,
  0x10a936eac01128a1fe4cc510ea100008500424208050346141f0000000001408e2d0109344e51344e400187,
  0x10a936eac49128a1fe4ce714eb900000500424208050346141f000000000144d12d010947686c47684c0188,
  0x10552e6280002c01ec0cc13326400000100434305020346141f000000000100422d0a0a383d283533350189,
  0x107d2e6280102c01ec0cc13326400000100434305020346141f0000000002008f2d0a0a4c5132444240018a,
  0x10fd6e6ac8902c05ec0ce13727400000100434305020346141f000000000300d22d080a656f3c585654018b,
  0x10123c6200002047e80841306200000055a3333040403460f7f00bc0000004038ff02001e1e3c1e3728018c,
  0x10123c6200002047e80841306200000053c1616040403460f7f00bc0000008071780200282850324b37018d,
  0x10123c6200802047e8084134620000005001616040403460f7f00bc0000000cac2d0200323264467855018e,
  0x10212e6290003003e02add33e200000055a6d56050200460f7f0000000000013aff000028231f282d3b018f],
  [0x10ed2e6290803803e02add37e250000053c6d56050200460f7f009e009b0008747f0a003c37473c554f0190,
  0x100000000000000000000000000000000003d3d030303460f7f01150000001036ff06062919192919250191,
  0x1029247242822201e80c4134620000000004444030303460f7f0115000000089f2d060633374133554d0192,
  0x1008246212003003e0285d3823000000100164f05050346147f0000000000043ceb0c0c22282d22412d0193,
  0x1008246212003003e0285d3823000000100164f05050364147f00000000000875780c0c313c3c31553c0194,
  0x1008246212803003e0285d3c23000000100164f05050346147f00000000000cc22d0c0c4f5f464f78500195,
  0x1001266342002101e08a437072000008378261e0f0f0346147f00f50000010044ff030b463237231e280196,
  0x100126e342802101e08a437472000008300261e07060346147f00f500000300cc4b030b697d5a37463c0197,
  0x10a8246ac5206803e768fd33630000001006868010101461e1f000000000004632d05051e1e3a287d430198,
  0x10ad246acda06883e76cfd37631000001006868010101461e1f000000000008c72d050532413a3ca5610199,
  0x1028646a85002001f768fd33e30000007000505010101461e1f000000000010632d0805582a1e762a1e019a,
  0x1028646a8d802001f768fd37e30000007000505010101461e1f000000000020c72d08058a2f1ea8343c019b,
  0x300000000000000000000000000000007003d3d030300460f7f0000000004003d7806062d1d242d1d28019c,
  0x1f30300027630280210be00b43f4720000007006b6b030300460ffe00de000008009f2d0b06694f24553b3c019d,
  0x101035630282214be80b43f4620000002004444030300460f0000de000001049f2d0206325e42325e46019e,
  0x100000000000000000000000000000002007676030303460f1f005e005e00403f7802062a1e462a1e1e019f,
  0x1011347202822843e8884134620000002002e2e030303460ffe00f500000410bc2d020666502866504601a0,
  0x1001366212003801e028dd38220000008003532060500640a7f00000000004078c80c0c5a2d5f462d3c01a1,
  0x106c246200002401e40cc5332e500000500212105020046147f00ba000000404bbe0a0a1e3c5523413701a2,
  0x106c246200a02481f40cc537af500000500212105020046147f00ba00000080b24b0a0a32557337695501a3,
  0x1000266242002101e00843d072000000900222207060046147f00ef0000010044be0b0b353e232d232d01a4,
  0x1000266242802101e00843d4720000009007a7a07060046147f00ef00000200854b0b0b4e5755463c4601a5,
  0x2004246200002401e008413326400000600723c0b020046147f00000000000149be0a0a3e392230304c01a6,
  0x206c246a06802401e588e13726400000600723c0b020046147f000000000002b04b040a525c2744536f01a7,
  0x1029376210b02813e82edf34e2500000600356505050464147f000000000080ba2d0000423c7342644b01a8,
  0x10112563326f300be02b593062800000600546a0b0b02461e7f0000000000017f7d02072c3c4622325a01a9,
  0x1013256332ef300be02b593462800000600546a0b0b02461e7f000000000002cc3c0207365a502c509601aa,
  0x102126621000b801e02acf3162500000500673208050000147f00bd0000004054be0000382c552c423701ab,
  0x102926621080b881e02adf376250000050067380805008c147f00bd00000080b23c0000603669544c4101ac,
  0x1000a56712a5311bf82b5934e28000006001a1a0b0b0423197f000000000500bb2d07076969693c3c3c01ad,
  0x10122d6710a42057f80b4134e2800000400690f04040323147f000000000008bb1e0210346947347d6401ae,
  0x1001356302302013f82add30e240000070014070505044614bf00950000004047be0000252a552a373101af,
  0x1001356302b02013f82add34e3400000700142f0505044614bf009500000080b74b00003b407040524701b0,
  0x1000a76312403019f03b41b8e28000002001a1a0f0f0446197f00c6000001004a780d0d32412d321e2d01b1,
  0x1031246600382013f2cac530e30000006006a0105050046147f0097000000404fe1100329294a2f3f3f01b2,
  0x103924e600b82013f2cac534e30000006006a0105050046147f009700000002d13c10033d4754435d6701b3,
  0x1000e769a3603008e51b63b862800000300551a0a0a004614ff00e90000001048ff0d0856181756183901b4,
  0x1028e769a3e83008e51b63bc62800000300551a0a0a004614ff00e900000410bc5a0d08744f2174594301b5,
  0x1000246b81082003e50cc1106280000050045050f0f0046147f00000000001044ff05052d0a0a5f503201b6,
  0x1000a7631240b81bf03f5bb8e29000009006f2b0f0f0046197f009a000004004e910d0d5a463c2d191401b7,
  0x100027631240a801e26b43b866400000900201e0f0f048c28fe0100006e0001ff820000410f1e05056401b8,
  0x10123c6200002047f8084130e20000004004d3304040323147f0115000000046b1e02002a5c5b2d414c01b9,
  0x1000256702872013f42b4134e2c000006002e2e0b0b00461e7f000000000410a86410076c5c236c5c3201ba,
  0x10a9246a84106001ef48e1306320000010008080e010546287f00c500000004432d040f2d282a2d463a01bb,
  0x10a9246a84106001ef48e5306320000010008080e010546287f00c500000008902d040f373252415a4401bc,
  0x10ad24eac4906a01ef4ce5346320000010008080e010546287f00c50000000cda2d040f5550665f826c01bd,
  0x10ac246a00402801e76f7b33625000004002f350f0f0546281f00ea00ea00015e32000055280528558701be,
  0x102824ea4030a881e40ce5306b10000010027500f0f0346191f000000000004484b010128233c28462801bf,
  0x10a864ee44b0e881e40fe5346bd00000100275008050346191f000000000104cc2d080146735a466e4601c0,
  0x1028246a80002001e5086510634000005002d2d050505461e7f0000000000105f8c04042a26204e484401c1,
  0x1028246a84802001e5086514634000005002d2d050505461e7f000000000020c63c040448442f76706c01c2,
  0x102924f642202a03fc8ec530e2000000678610409030546147f00f50000001072780603371e415a322801c3,
  0x10a924fe42a02a03fc8ee534e300000063c610409030546147f00f500000020cc2d10034b3c5f6e5a4601c4,
  0x10a824fe00242893f48ee130ea100000196576b080800640a7f011900000004538c0103283d32283d3001c5,
  0x10a924fe44a42893f48ee134ea100000178576b08080046147f011900000008b54b0103415655416a5301c6,
  0x1001266242a02903e08843547200000033c1a1a07070546197f000000000008a4c80b0b485a2e48644a01c7,
  0x1054346302222401e00841b32640000010072210c0c0146147f00bb000000405abe0a0a3d314238313101c8,
  0x1054346302a22401e00841b72640000010072210c0c0146147f00bb000000809c4b0a0a56455b4c454501c9,
  0x1044246200002001e8086133264000001000b210f0f0546197f0000000004006c19020a783c3232142d01ca,
  0x100026624a002101e00a47fb36400000800757507010546147f00f60000000483780e0b3c3e28323e3c01cb,
  0x10a8266a4a802981e40e67ff36500000800757507010546147f00f600000104d63c0e0b555c3c4b5c5a01cc,
  0x102d25f748b42a93f80ec537e69000004002e2e05050323147f00d9011e0044c72d0e10552d7d41784601cd,
  0x1000646132c83000e038593c62000000700052a0a0a004614ff00e900000300d31e080c5a823c73464601ce,
  0x10ad256b60882883e76eff37625000009000c1401010046147f011700000003c11e00005f50325f556e01cf,
  0x10ad64eacdb06883e76cfd3763100000700741f05010546147f00000000000cd91e0504373728828c7301d0,
  0x102926eb42a02983ecbc635472000000100662207070046147f000000000020d31e0b0b326e327d646401d1,
  0x10a8246a12803883f46dfd3ca21000002004e4e08080046193f01420000000cc71e0c0c555f5f437b4b01d2,
  0x10a8246a008128a3f64d6f14e2100008000313108080046193f014300000300c71e09095f7d53435f4b01d3,
  0x10322f631282a845ea7f43bc625000088002037060404460a1f000000000600dc1e02007378505f325501d4,
  0x1010356302822047e80b4354620000003006e0303030046147f010900000008c61e020638745f564c5601d5,
  0x1028267242802101e80ac77473000000300666605050023231f000000000020c42d0b0b413c5f826e4101d6,
  0x1028246208802001e00ac53767400000100515105050023231f000000000200c42d0e0e5f82416e3c4101d7,
  0x103934fec5a02a47fd8ce534e2000000600083403030346147f000000000020c01e02044b2d5f7d5f4b01d8,
  0x10a8246a8c802001e518e13f27000000500510c05050546147f00000000000ccf32040e3c465050826e01d9,
  0x1000a56512c43002e82b5f3762000000000585b0a0a004614ff000000000300b91e00004b875a46505501da,
  0x1029a7fb56c0ba9bfc3f69bcea90000080050500b0b0523140000000000000cd02d010d734150417d4401db,
  0x1028646a95882001f5287914e20000007002a050a0a0046147f00ee00000810c63c0805964b2891373c01dc,
  0x1028a56f02a5389bf40f6137e29000004002e2e0b0b0423197f00c400000810d22d070787412d87642d01dd,
  0x100025631aa42811f02b59bfa640000080051510a06004614fe00c700000080bb4b070e46506e46504601de,
  0x1f706000256512013012e03a5938620000000001a1a0b0b004614ff000000000140842d070c4d5f5b4d323201df,
  0x1000b76192c03908e13b5ffc62c000002001a1a0f0f058c50ff000000000420d2030d0d824b5f824b4b01e0,
  0x1000b76192c03908e13b5dbf62c000009001a1a0f0f058c50ff000000000504d2030d0d69695069695001e1,
  0x1000b76192e83908f37b5dbce2c000001001a1a0f0f058c50ff000000000108d2030d0d467d73467d4b01e2,
  0x1029e46996906020ef6c7db76b2000008002e2e0f0f050078ff000000000300dc1e0f0864965a78786401e3,
  0x102da4691c906c80ef6c79b76f7000006002e2e0f0f050078ff000000000300dc1e0f0a78966464785a01e4,
  0x10a8646e84a96021f648e314e300000050012120f0f05640a7f000000000300d70308096a824d6a5a5b01e5,
  0x10a824691d80a8806c2c79a46210000080070700f0f050078ff00000000000cdc0300006e50646ea06e01e6,
  0x1f5020bb256514b37104e82b7db463a000004002e2e0f0f050078ff000000000003dc030f0778645a78649601e7,
  0x1000a76312c03109e01b43bd628000002001a1a0f0f056478fe000000000c00d2030d0d824b5578467801e8,
  0x1044366100002c00e00841b3264000001005d5d0602054628ff000000000001a51e0a0a50505050505001e9,
  0x1044366102802d08e01b41bf26c000001005d5d060205460aff000000000003d7030a0a64646464646401ea,
  0x10a925fd52b5b892fcaf5937e29000004007b7b0f0f050078ff000000000240d20310105a877d5a5a4601eb,
  0x1f602000266142802100e00943d4720000003001e1e0f0f036478ff009d009d0003402d0b0b64646464646401ec,
  0x120ffe7fddef375a0efff7fff77e0000070079790f0f050078ff000000000003ff03000078787878787801ed,
  0x10000000000000000000000000000000a0000000f0f050078ff000000000000ff0300000a0a0a0a0a0a01ee,
  0x10000000000000000000000000000000a0000000f0f050078ff000000000000ff0300000a0a0a0a0a0a01ef,
  0x4029e7e99ac0b998fc3f5bbde2d000000002e2e0f0f050078ff000000000108d7030d0d14b49614b43201f0,
  0x4029e7e99ac0b998fc3f5bbde2d000000002e2e0f0f050078ff000000000420d7030d0da0465aa0463201f1,
  0x4029e7e99ac0b998fc3f5bbde2d000000002e2e0f0f050078ff0000000000c0d7030d0d5a5fb45a5f3201f2,
  0x300025630280200be50be1b4620000007006b6b030300460ffe00de000000209f2d0406553b24694f3c01f3],
  [0x30006563a280200be00b41b4620000007006b6b030300460ffe00de000004109f2d08065f45245f453c01f4,
  0x20bb256514b37104e82b7db463a000004001a1a0f0f050078ff000000000003dc030f0764785a64789601f5,
  0x2000266142802100e00943d47200000830020200f0f036478ff009d009d00c0402d020b4b787f4b676401f6,
  0x6000256512013012e03a5938620000000001a1a0b0b004614ff000000000140842d070c6b69566b413201f7,
  0x6000256512013012e03a5938620000000001a1a0b0b004614ff000000000140842d070c6b69566b413201f8,
  0x6000256512013012e03a5938620000000001a1a0b0b004614ff000000000140842d070c6b69566b413201f9,
  0x6000256512013012e03a5938620000000001a1a0b0b004614ff000000000140842d070c6b69566b413201fa,
  0x6000256512013012e03a5938620000000001a1a0b0b004614ff000000000140842d070c6b69566b413201fb]]

end Verif.Data
