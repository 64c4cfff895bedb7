/-
Generated by tools/gen_la.py: the ids of the encounter tables, checked in Lemmas/LaArea1 to LaArea5.
-/
namespace Verif.Data

/-- the ids of the tables of area 1 -/
def ids1 : List Nat := [
  0x6a59d3bf28acdb32, 0x2f55d800dc453fec, 0x6a59d4bf28acdce5, 0x6a59d1bf28acd7cc, 0x6a59d2bf28acd97f, 0x2f55db00dc454505,
  0x6a59d0bf28acd619, 0x2f55d500dc453ad3, 0x6a5d58bf28aff308, 0x6a5d5bbf28aff821, 0x6a5d5dbf28affb87, 0x2f595a00dc4852a9,
  0x6a5d5fbf28affeed, 0x2f595800dc484f43, 0x6a5d5ebf28affd3a, 0x2f595700dc484d90, 0x6a5d51bf28afe723, 0x6a5347bf28a781a0,
  0x2f5c6400dc4a997e, 0x6a534abf28a786b9, 0x6a534ebf28a78d85, 0x2f5c6700dc4a9e97, 0x6a56cdbf28aa9b29, 0x2f5fea00dc4db307,
  0x6a56cbbf28aa97c3, 0x6a56cabf28aa9610, 0x6a56d1bf28aaa1f5, 0x2f5fe600dc4dac3b, 0x6a56d0bf28aaa042, 0x6a56cfbf28aa9e8f,
  0x6a56cebf28aa9cdc, 0x6a56d5bf28aaa8c1, 0x6a56d4bf28aaa70e, 0x6a67cbbf28b90af6, 0x6a67ccbf28b90ca9, 0x6a67c9bf28b90790,
  0x6a67cabf28b90943, 0x6a67cfbf28b911c2, 0x6a67cebf28b9100f, 0x6a67d3bf28b9188e, 0x6a67d4bf28b91a41, 0x6a6ad1bf28bb4aff,
  0x6a6ad0bf28bb494c, 0x6a6ad3bf28bb4e65, 0x6a6ad2bf28bb4cb2, 0x6a6acdbf28bb4433, 0x2f4b6900dc3c2eca, 0x2f4b6800dc3c2d17,
  0x2f4b6700dc3c2b64, 0x6a6ad9bf28bb5897, 0x6a6ad8bf28bb56e4, 0x6a60dfbf28b30e44, 0x6a60e0bf28b30ff7, 0x6a60e1bf28b311aa,
  0x6a60e2bf28b3135d, 0x6a60dbbf28b30778, 0x6a60dcbf28b3092b, 0x6a60ddbf28b30ade, 0x6a60debf28b30c91, 0x6a60d7bf28b300ac,
  0x6a60d8bf28b3025f, 0x6a6465bf28b627cd, 0x6a6464bf28b6261a, 0x2f525400dc4229c9, 0x6a6462bf28b622b4, 0x6a6461bf28b62101,
  0x6a6460bf28b61f4e, 0x6a645fbf28b61d9b, 0x6a645ebf28b61be8, 0x6a645dbf28b61a35, 0x6a645cbf28b61882, 0x6a7563bf28c4979a,
  0x2f3a6900dc2dbb97, 0x6a7561bf28c49434, 0x6a7562bf28c495e7, 0x6a755fbf28c490ce, 0x83b2daf761d483d0, 0x83b2dbf761d48583,
  0x83b2dcf761d48736, 0x83b2ddf761d488e9, 0x83b2def761d48a9c, 0xbca38f03c9ca6a31, 0x36074b494fd52787, 0xbca38e03c9ca687e,
  0x36074a494fd525d4, 0xbca38c03c9ca6518, 0x36074c494fd5293a, 0xbca39303c9ca70fd, 0xbca39103c9ca6d97, 0xbca39003c9ca6be4,
  0xbca38703c9ca5c99, 0xbca38603c9ca5ae6, 0xbca08903c9c82a28, 0xbca08a03c9c82bdb, 0x3603c3494fd20a98, 0x3603c4494fd20c4b,
  0x3603c9494fd214ca, 0xbca08e03c9c832a7, 0xbca08f03c9c8345a, 0xbca09003c9c8360d, 0x3603bd494fd20066, 0xbca08203c9c81e43,
  0xbcaa7b03c9d066e3, 0xfd99a4ca1d544375, 0x18f7b980761cb7eb, 0xfd99a3ca1d5441c2, 0xfd99a2ca1d54400f, 0xfd99a1ca1d543e5c,
  0xc6376f8312694b7c, 0xc637708312694d2f, 0xc637718312694ee2, 0xc637728312695095, 0xc6376b83126944b0, 0xc6376c8312694663,
  0xc6376d8312694816, 0xc6376e83126949c9, 0xc637778312695914, 0xc637788312695ac7, 0xc63af583126c6505, 0xc63af483126c6352,
  0xc63af383126c619f, 0xc63af283126c5fec, 0xc63af183126c5e39, 0xc63af083126c5c86, 0xc63aef83126c5ad3, 0xc63aee83126c5920,
  0x37786c658e65fcfd, 0x64aecfc1e9c3d9f1, 0xe36683b13a120647, 0x32c6f0f14b22399c, 0x32c6f1f14b223b4f, 0x32c6f2f14b223d02,
  0x32c6f3f14b223eb5, 0x32c6ecf14b2232d0, 0x32c6edf14b223483, 0x32c6eef14b223636, 0x32c6eff14b2237e9, 0x32cd7cf14b27932e,
  0x5f632f859736d577, 0x5f632e859736d3c4, 0x5f6331859736d8dd, 0x5f6330859736d72a, 0x5f632b859736ceab, 0x5f632a859736ccf8,
  0x5f632d859736d211, 0x5f632c859736d05e, 0x5f6327859736c7df, 0x5f6326859736c62c, 0x5f5fa9859733bbee, 0x5f5faa859733bda1,
  0x5f5fa7859733b888, 0x5f5fa8859733ba3b, 0x5f5fad859733c2ba, 0x5f5fae859733c46d, 0x5f5fab859733bf54, 0x5f5fac859733c107,
  0x5f5fa1859733ae56, 0x5f5fa2859733b009, 0x5f5c23859730a265, 0x5f5c22859730a0b2, 0x5f5c218597309eff, 0x5f5c208597309d4c,
  0x5f5c1f8597309b99, 0x5f5c1e85973099e6, 0x5f5c1d8597309833, 0x5f5c1c8597309680, 0x5f5c2b859730affd, 0x5f5c2a859730ae4a,
  0x5f591d85972e625c, 0x5f591e85972e640f, 0x5f591f85972e65c2, 0x5f592085972e6775, 0x5f591985972e5b90, 0x5f591a85972e5d43,
  0x5f591b85972e5ef6, 0x5f591c85972e60a9, 0x5f592585972e6ff4, 0x5f592685972e71a7, 0x5f559785972b48d3, 0x5f559685972b4720,
  0x5f559985972b4c39, 0x5f559885972b4a86, 0x5f559b85972b4f9f, 0x5f559a85972b4dec, 0xa98a1d52a0bf7040, 0x634eecfe673bd3a9,
  0x7f0c275dea2830ef, 0x5767944c206ba30e, 0xacc631644d03db1e, 0x577c7b6e5c101f2d, 0x3ef282495f91043c, 0x83836574bd79fe7c,
  0x6788096181994592, 0x8f17d5510fb18db4, 0xba024b45c6a4c565, 0x7a541e8285beec54, 0xba024a45c6a4c3b2, 0x7a541f8285beee07,
  0xc265117ff054d38e, 0xc265127ff054d541, 0xc0bcc77ac8ea689f, 0xc0bcc67ac8ea66ec, 0xf261d9a4822379ea, 0xd80ea7966dacf58f,
  0xd80ea6966dacf3dc, 0xff9df385fbc46431, 0xd2701f7315dd2073, 0xfbb2eb62a566fd15, 0xfe0d9a88bf266767, 0x4d173a8b1dada666,
  0xff48c48de633ca16, 0x96d80e11f6563a95, 0x821f7ab4a5f393c4, 0x418e581c05627ea4, 0xe4d5fc8c55250e0a, 0x0f5472810bbd26db,
  0xe3b9e87aaaaf098c, 0x36e3be7099d4957d, 0x9c9704bb615f6bcc, 0x13abfaa462768657, 0x6889309a530e49e8, 0xaf3f0a9f266c4d71,
  0x3c822693f1a43439, 0x58069696265a7587, 0x80dcc285b5882369, 0x7e0d4e74099fe74b, 0x50df9a6123b8d9ed, 0x418cdbcf8eccf0d1,
  0x418cd8cf8eccebb8, 0x418cd9cf8ecced6b, 0x7fa3a1de69bd271e, 0x44182a854cd372aa, 0x44182b854cd3745d, 0x441828854cd36f44,
  0xb6a506cf7bc718ef, 0x7ccc8f76604ef8fb, 0x7ccc8e76604ef748, 0x7ccc9176604efc61, 0xae0fb59d11e10887, 0x0a331dbb81b1fc43,
  0x0a331cbb81b1fa90, 0x0a331fbb81b1ffa9, 0x41e4947058a65fd8, 0x702edc94e9044b34, 0x702edd94e9044ce7, 0x702ede94e9044e9a,
  0x21c03b7ff717bbab, 0x87d933e515710a7f, 0x87d932e5157108cc, 0x87d935e515710de5, 0x2636af8bb69216a3, 0xcbc6c76d483390e7,
  0xcbc6c66d48338f34, 0xcbc6c96d4833944d, 0xe680740c6be14efb, 0x2058eb6587596eef, 0x2058ea6587596d3c, 0x2058ed6587597255,
  0x7a36227f4c2cc35d, 0xb5c199d8691677d1, 0xb5c198d86916761e, 0xb5c197d86916746b, 0x8e51750b5eb775a0, 0x53327db24229b98c,
  0x53327eb24229bb3f, 0x53327fb24229bcf2, 0xdedba54ca00f14e4, 0x2e2a5e3683b037e8, 0x2e2a5f3683b0399b, 0x2e2a603683b03b4e,
  0x4ebafdb3f3d274cd, 0x88c23617d6ba8461, 0x88c23517d6ba82ae, 0x88c23417d6ba80fb, 0x5bfa9cca4ed8142b, 0xc213952f6d3162ff,
  0xc213942f6d31614c, 0xc213972f6d316665, 0xb5ee09f298c830f4, 0x311ec1d2f068f098, 0x311ec2d2f068f24b, 0x311ec3d2f068f3fe,
  0xe35fd9b2d7a94e6f, 0xa9876259bc312e7b, 0xa9876159bc312cc8, 0xa9876459bc3131e1, 0x581de2e85ba38aec, 0x933c5a4178306d80,
  0x933c5b4178306f33, 0x933c5c41783070e6, 0x5182b16f9ec5667a, 0x8b8a69d381ae4f8e, 0x8b8a6ad381ae5141, 0x8b8a67d381ae4c28,
  0x8f1edd81805ef8a4, 0xde6d966b64001ba8, 0xde6d976b64001d5b, 0xde6d986b64001f0e, 0x2e9a27b02954f177, 0x09aa8ec77fb41c53,
  0x09aa8dc77fb41aa0, 0x09aa90c77fb41fb9, 0xaefe8b222374c781, 0x203952bbcc8c88ed, 0x203951bbcc8c873a, 0x203950bbcc8c8587,
  0xb76a7f0c08a5d3bc, 0x9dfab76d78a429f0, 0x9dfab86d78a42ba3, 0x9dfab96d78a42d56, 0x5f4f11a6fcd08365, 0x047289888e15cee9,
  0x047288888e15cd36, 0x047287888e15cb83, 0xaabdaaf4803c7b93, 0xcfad43dd29dd50b7, 0xcfad42dd29dd4f04, 0xcfad45dd29dd541d,
  0x983077e222f88d07, 0xf453e00092c980c3, 0xf453df0092c97f10, 0xf453e20092c98429, 0xc0272de866874b95, 0xe4aa26d10fcbf1f9,
  0xe4aa25d10fcbf046, 0xe4aa24d10fcbee93, 0xaba3272412310022, 0xfaf1600df5d149a6, 0xfaf1610df5d14b59, 0xfaf15e0df5d14640,
  0x6456e4c45d4447dd, 0x9fe25c1d7a2dfc51, 0x9fe25b1d7a2dfa9e, 0x9fe25a1d7a2df8eb, 0x95e8e33c775f739a, 0x24ad9ba2ce46d8ae,
  0x24ad9ca2ce46da61, 0x24ad99a2ce46d548, 0x267c94c0e8327c6d, 0xb541cd273f1abb01, 0xb541cc273f1ab94e, 0xb541cb273f1ab79b,
  0x05b82458a398abfa, 0x3fbfdcbc8681950e, 0x3fbfddbc868196c1, 0x3fbfdabc868191a8, 0x4418cafb9ae0f8f7, 0x1f293212f14023d3,
  0x1f293112f1402220, 0x1f293412f1402739, 0x69f12b63ef3b0d93, 0x8ee0c44c98dbe2b7, 0x5c4b06cb0f089ded, 0xeb103f3165f0dc81,
  0xeb103e3165f0dace, 0xeb103d3165f0d91b, 0xda1d5c5459e77470, 0xf38d23f2e9e91e3c, 0xf38d24f2e9e91fef, 0xf38d25f2e9e921a2]

/-- the ids of the tables of area 2 -/
def ids2 : List Nat := [
  0x6a59d3bf28acdb32, 0x2f55d800dc453fec, 0x6a59d4bf28acdce5, 0x2f55d900dc45419f, 0x2f55db00dc454505, 0x6a59cfbf28acd466,
  0x2f55d400dc453920, 0x6a59d0bf28acd619, 0x2f55d500dc453ad3, 0x6a59cdbf28acd100, 0x2f55d600dc453c86, 0x2f55d700dc453e39,
  0x6a59dbbf28ace8ca, 0x2f55e000dc454d84, 0x6a59dcbf28acea7d, 0x2f55e100dc454f37, 0x83b2e3f761d4931b, 0x6a5d59bf28aff4bb,
  0x2f595e00dc485975, 0x6a5d5bbf28aff821, 0x2f595c00dc48560f, 0x2f595b00dc48545c, 0x6a5d5dbf28affb87, 0x2f595a00dc4852a9,
  0x6a5d5cbf28aff9d4, 0x2f595900dc4850f6, 0x6a5d5fbf28affeed, 0x6a5d5ebf28affd3a, 0x83b5e1f761d6c58c, 0x6a5d50bf28afe570,
  0x2f596500dc48655a, 0x6a5347bf28a781a0, 0x2f5c6400dc4a997e, 0x6a5348bf28a78353, 0x2f5c6500dc4a9b31, 0x6a5349bf28a78506,
  0x6a534abf28a786b9, 0x6a534bbf28a7886c, 0x2f5c6800dc4aa04a, 0x6a534cbf28a78a1f, 0x6a534dbf28a78bd2, 0x6a534ebf28a78d85,
  0x6a5350bf28a790eb, 0x6a56cdbf28aa9b29, 0x6a56cbbf28aa97c3, 0x6a56cabf28aa9610, 0x6a56d1bf28aaa1f5, 0x6a56d0bf28aaa042,
  0x6a56cfbf28aa9e8f, 0x6a56cebf28aa9cdc, 0x6a56d5bf28aaa8c1, 0x6a56d4bf28aaa70e, 0x2f486000dc39e9a8, 0x6a67ccbf28b90ca9,
  0x6a67c9bf28b90790, 0x2f486300dc39eec1, 0x2f486400dc39f074, 0x6a67d0bf28b91375, 0x6a67cdbf28b90e5c, 0x6a67cebf28b9100f,
  0x6a67d3bf28b9188e, 0x6a67d4bf28b91a41, 0x2f4b6600dc3c29b1, 0x2f4b6500dc3c27fe, 0x2f4b6400dc3c264b, 0x6a6ad2bf28bb4cb2,
  0x6a6acdbf28bb4433, 0x2f4b6900dc3c2eca, 0x6a6acfbf28bb4799, 0x6a6acebf28bb45e6, 0x6a6ad9bf28bb5897, 0x6a6ad8bf28bb56e4,
  0x6a60dfbf28b30e44, 0x83b2dbf761d48583, 0x83b2dcf761d48736, 0x83b2ddf761d488e9, 0x83b964f761d9d9fc, 0xfd99a3ca1d5441c2,
  0x18f7b880761cb638, 0xfd99a2ca1d54400f, 0xfd99a1ca1d543e5c, 0x18f7bd80761cbeb7, 0x18f7bc80761cbd04, 0x18f7bf80761cc21d,
  0x18f7be80761cc06a, 0xbca38f03c9ca6a31, 0x36074a494fd525d4, 0xbca38d03c9ca66cb, 0x36074d494fd52aed, 0xbca38c03c9ca6518,
  0xbca39303c9ca70fd, 0xbca39203c9ca6f4a, 0xbca39103c9ca6d97, 0xbca39003c9ca6be4, 0xbca38703c9ca5c99, 0xbca38603c9ca5ae6,
  0xbca08903c9c82a28, 0x3603c6494fd20fb1, 0xbca08b03c9c82d8e, 0xbca08c03c9c82f41, 0xbca08d03c9c830f4, 0x3603ca494fd2167d,
  0xc6376f8312694b7c, 0xc637708312694d2f, 0xc637718312694ee2, 0xc637728312695095, 0xc6376b83126944b0, 0xc6376c8312694663,
  0xc6376d8312694816, 0xc6376e83126949c9, 0xc637778312695914, 0xc637788312695ac7, 0xc63af583126c6505, 0xc63af483126c6352,
  0xc63af383126c619f, 0xc63af283126c5fec, 0xc63af183126c5e39, 0xc63af083126c5c86, 0xc63aef83126c5ad3, 0xc63aee83126c5920,
  0xc63afd83126c729d, 0x617b98844bff6549, 0x617b9b844bff6a62, 0x617b99844bff66fc, 0x617b9a844bff68af, 0x617f1d844c027d1f,
  0x617f1f844c028085, 0x617f25844c028ab7, 0x64aecfc1e9c3d9f1, 0xe36683b13a120647, 0xe36682b13a120494, 0x32c6edf14b223483,
  0x32c6eef14b223636, 0x32c6eff14b2237e9, 0x32c9f1f14b247126, 0x5f632f859736d577, 0x5f632e859736d3c4, 0x5f6331859736d8dd,
  0x5f6330859736d72a, 0x5f632b859736ceab, 0x5f632a859736ccf8, 0x5f632d859736d211, 0x5f632c859736d05e, 0x5f6327859736c7df,
  0x5f6326859736c62c, 0x5f5fa9859733bbee, 0x5f5faa859733bda1, 0x5f5fa7859733b888, 0x5f5fa8859733ba3b, 0x5f5fad859733c2ba,
  0x5f5fae859733c46d, 0x5f5fab859733bf54, 0x5f5fac859733c107, 0x5f5fa1859733ae56, 0x5f5fa2859733b009, 0x5f5c23859730a265,
  0x5f5c22859730a0b2, 0x5f5c218597309eff, 0x5f5c208597309d4c, 0x5f5c1f8597309b99, 0x5f5c1e85973099e6, 0x5f5c1d8597309833,
  0x5f5c1c8597309680, 0x5f5c2b859730affd, 0x5f5c2a859730ae4a, 0x5f591d85972e625c, 0x5f591e85972e640f, 0x5f591f85972e65c2,
  0x5f592085972e6775, 0x5f591985972e5b90, 0x5f591a85972e5d43, 0x5f591b85972e5ef6, 0x5f591c85972e60a9, 0x5f592585972e6ff4,
  0x5f592685972e71a7, 0x5f559785972b48d3, 0x5f559685972b4720, 0x5f559985972b4c39, 0x5f559885972b4a86, 0xcc68885f05ed561c,
  0xcc68895f05ed57cf, 0xcda3d2642cfaef2b, 0xa4d8dc6f77d5445a, 0xd072c675d8e251c9, 0x42158ef4d2349041, 0xf007cd108d8508ce,
  0xfe0d9a88bf266767, 0xff48c48de633ca16, 0xff48c58de633cbc9, 0x96d80e11f6563a95, 0x96d80d11f65638e2, 0x418e581c05627ea4,
  0xe4d5fc8c55250e0a, 0x0f5472810bbd26db, 0x0f5471810bbd2528, 0xe3b9e87aaaaf098c, 0x36e3be7099d4957d, 0x36e3bd7099d493ca,
  0x40f964aac4f601c6, 0x13abfaa462768657, 0x6889309a530e49e8, 0x3c822693f1a43439, 0x3c822593f1a43286, 0x06f1ac46e20d18b2,
  0xd9a4a2407f8e4063, 0xd9a4a1407f8e3eb0, 0x58069696265a7587, 0x58069596265a73d4, 0xafb2c09dc2d99bb6, 0xafb2c19dc2d99d69,
  0x4f1a35343260ea84, 0x7b211f3a93cac9d3, 0x25d76944a2d70de2, 0x25d76a44a2d70f95, 0x5391734b05b2b811, 0x5391724b05b2b65e,
  0x634eecfe673bd3a9, 0x9224eb16748d4bf6, 0x7f0c275dea2830ef, 0x7f0c265dea282f3c, 0xacc631644d03db1e, 0xacc632644d03dcd1,
  0x577c7b6e5c101f2d, 0x577c7a6e5c101d7a, 0x83836574bd79fe7c, 0x83836674bd7a002f, 0x6788096181994592, 0x9272ff56388d56c3,
  0x9272fe56388d5510, 0x8f17d5510fb18db4, 0x8f17d6510fb18f67, 0x8f17d7510fb1911a, 0xba024b45c6a4c565, 0xba024a45c6a4c3b2,
  0xba024945c6a4c1ff, 0xc265117ff054d38e, 0xc265127ff054d541, 0xc2650f7ff054d028, 0xc0bcc77ac8ea689f, 0xc0bcc67ac8ea66ec,
  0xeb3abd6f7f81a7f0, 0xeb3abe6f7f81a9a3, 0xbdedd3691d030601, 0xbdedd2691d03044e, 0xbdedd1691d03029b, 0xf261d9a4822379ea,
  0xf261daa482237b9d, 0xf261d7a482237684, 0x1cdfcf9938bab93b, 0x1cdfce9938bab788, 0x1cdfd19938babca1, 0xd80ea7966dacf58f,
  0xd80ea6966dacf3dc, 0x0415319ccf1631be, 0x0415329ccf163371, 0xe8581bb6477bca5e, 0xe8581ab6477bc8ab, 0x41e4947058a65fd8,
  0x702edc94e9044b34, 0x702edd94e9044ce7, 0x702ede94e9044e9a, 0x0b882ecc92227591, 0xcffcb7737538c11d, 0xcffcb6737538bf6a,
  0xcffcb5737538bdb7, 0x22b4b9d8ec78a773, 0x47a452c196197c97, 0x47a451c196197ae4, 0x47a454c196197ffd, 0xa18bca1fba797769,
  0xfc68523e29342be5, 0xfc68513e29342a32, 0xfc68503e2934287f, 0x6b42457f1c3f5457, 0x4652ac96729e7f33, 0x4652ab96729e7d80,
  0x4652ae96729e8299, 0xcd9d902584fadc0b, 0x3204088aa1e36fdf, 0x3204078aa1e36e2c, 0x32040a8aa1e37345, 0xcbc824216cf129e5,
  0x70eb9c02fe367569, 0x70eb9b02fe3673b6, 0x70eb9a02fe367203, 0xde62430a26019073, 0x0351dbf2cfa26597, 0x0351daf2cfa263e4,
  0x0351ddf2cfa268fd, 0xb348e127ece2ce20, 0x7829e9ced055120c, 0x7829eaced05513bf, 0x7829ebced0551572, 0x1ac404aaaaae96f0,
  0x3433cc493ab040bc, 0x3433cd493ab0426f, 0x3433ce493ab04422, 0x53f8fbc800abf304, 0x4e89b4af704ce708, 0x4e89b5af704ce8bb,
  0x4e89b6af704cea6e, 0xebb267557307b5ff, 0x85996ef054ae672b, 0x85996df054ae6578, 0x859970f054ae6a91, 0x039a6b2692d9ca51,
  0xc80ef3cd75f015dd, 0xc80ef2cd75f0142a, 0xc80ef1cd75f01277, 0x00c756ff484b9dd6, 0x87491f1ef21b9932, 0x8749201ef21b9ae5,
  0x87491d1ef21b95cc, 0x6d75099ba76e03b9, 0x48f210b2fe295d55, 0x48f20fb2fe295ba2, 0x48f20eb2fe2959ef, 0xad190734a744bdea,
  0xe8a47e8dc42e725e, 0xe8a47f8dc42e7411, 0xe8a47c8dc42e6ef8, 0x2b9ea24085244e5a, 0x10e85aa1f40d086e, 0x10e85ba1f40d0a21,
  0x10e858a1f40d0508, 0x3f66af29d7fb4867, 0x99d697484659ce23, 0x99d696484659cc70, 0x99d699484659d189, 0xb97bec7aebafe187,
  0x159f54995b80d543, 0x159f53995b80d390, 0x159f56995b80d8a9, 0x983077e222f88d07, 0xf453e00092c980c3, 0xf453df0092c97f10,
  0xf453e20092c98429, 0x4fe26d01fe772a10, 0x1647b49e1beb12dc, 0x1647b59e1beb148f, 0x1647b69e1beb1642, 0x44b4ae7881b41f32,
  0xbe32e658d7e423d6, 0x519961d10096cff3, 0x7688fab9aa37a517, 0x7688f9b9aa37a364, 0x7688fcb9aa37a87d, 0xa26b38e34424a441,
  0xbd210081d53b10ad, 0xbd20ff81d53b0efa, 0xbd20fe81d53b0d47, 0x0e4a58f1740ad777, 0xe95ac008ca6a0253, 0xe95abf08ca6a00a0,
  0xe95ac208ca6a05b9, 0x27017e5b2f0ee5b6, 0x008dc67d4b6ca212, 0x5e324e1df8ea92fb, 0x980ac5771462b2ef, 0x980ac4771462b13c,
  0x980ac7771462b655, 0x30d73d9eff1e1d08, 0x364684b78f7d2904, 0x364685b78f7d2ab7, 0x364686b78f7d2c6a, 0xdeb61555f04a8f1a,
  0x6d7acdbc4731f42e, 0x6d7acebc4731f5e1, 0x6d7acbbc4731f0c8, 0x72d67547c0638264, 0xc2252e31a404a568, 0xf59e7a06cc950e35,
  0x1a20f2ef75d8db19, 0x1a20f1ef75d8d966, 0x1a20f0ef75d8d7b3, 0xead59441fdf5adf8, 0xc614dc641bc4fed4, 0xc614dd641bc50087,
  0xc614de641bc5023a, 0x033920ebc10c294e, 0xc9316887de23403a, 0xc9316987de2341ed, 0xc9316687de233cd4, 0x64064a0b10810230,
  0xd3fb11a4b88400fc]

/-- the ids of the tables of area 3 -/
def ids3 : List Nat := [
  0x6a59d3bf28acdb32, 0x6a59d4bf28acdce5, 0x2f55d900dc45419f, 0x6a59d1bf28acd7cc, 0x2f55da00dc454352, 0x6a59d2bf28acd97f,
  0x2f55db00dc454505, 0x6a59cfbf28acd466, 0x2f55d400dc453920, 0x6a59d0bf28acd619, 0x6a59cdbf28acd100, 0x2f55d600dc453c86,
  0x6a59cebf28acd2b3, 0x6a59dbbf28ace8ca, 0x6a59dcbf28acea7d, 0x6a5d58bf28aff308, 0x6a5d5bbf28aff821, 0x6a5d5abf28aff66e,
  0x6a5d5dbf28affb87, 0x6a5d5cbf28aff9d4, 0x6a5d5fbf28affeed, 0x6a5d5ebf28affd3a, 0x6a5d51bf28afe723, 0x6a5d50bf28afe570,
  0x2f596500dc48655a, 0x6a5347bf28a781a0, 0x6a5349bf28a78506, 0x6a534abf28a786b9, 0x6a534bbf28a7886c, 0x6a534ebf28a78d85,
  0x6a534fbf28a78f38, 0x6a5350bf28a790eb, 0x6a56cbbf28aa97c3, 0x6a56cabf28aa9610, 0x2f5fe600dc4dac3b, 0x6a56d0bf28aaa042,
  0x6a56cfbf28aa9e8f, 0x6a56d5bf28aaa8c1, 0x6a56d4bf28aaa70e, 0x6a67cbbf28b90af6, 0x6a67ccbf28b90ca9, 0x6a67c9bf28b90790,
  0x6a67cabf28b90943, 0x6a67cfbf28b911c2, 0x6a67cdbf28b90e5c, 0x83b2daf761d483d0, 0x83b2dbf761d48583, 0x83b2dcf761d48736,
  0xfd99a4ca1d544375, 0xfd99a3ca1d5441c2, 0x18f7b880761cb638, 0xfd999fca1d543af6, 0x18f7bc80761cbd04, 0xfd999dca1d543790,
  0xfd99acca1d54510d, 0xfd961dca1d512839, 0xfd9626ca1d513784, 0xfd9627ca1d513937, 0xfda02fca1d599b54, 0xfda032ca1d59a06d,
  0xfda031ca1d599eba, 0xfda02eca1d5999a1, 0xfda02dca1d5997ee, 0xfda027ca1d598dbc, 0x18eda780761444d0, 0x18eda98076144836,
  0xfd9ca9ca1d5681cb, 0xbca38f03c9ca6a31, 0x36074b494fd52787, 0xbca38e03c9ca687e, 0xbca38d03c9ca66cb, 0xbca38c03c9ca6518,
  0xbca39303c9ca70fd, 0xbca39203c9ca6f4a, 0xbca39103c9ca6d97, 0xbca39003c9ca6be4, 0xbca38703c9ca5c99, 0x360743494fd519ef,
  0xbca38603c9ca5ae6, 0xbca08903c9c82a28, 0xbca08a03c9c82bdb, 0xbca08b03c9c82d8e, 0xbca08c03c9c82f41, 0xbca08d03c9c830f4,
  0xbca08e03c9c832a7, 0xbca08f03c9c8345a, 0xbca09003c9c8360d, 0xbca08103c9c81c90, 0x37786c658e65fcfd, 0xc6376f8312694b7c,
  0xc637708312694d2f, 0xc637718312694ee2, 0xc637728312695095, 0xc6376b83126944b0, 0xc6376c8312694663, 0xc6376d8312694816,
  0xc6376e83126949c9, 0xc637778312695914, 0xc637788312695ac7, 0xc63af583126c6505, 0xc63af483126c6352, 0xc63af383126c619f,
  0xc63af283126c5fec, 0xc63af183126c5e39, 0xc63af083126c5c86, 0xc63aef83126c5ad3, 0xc63aee83126c5920, 0xc63afd83126c729d,
  0x64aecfc1e9c3d9f1, 0xe36683b13a120647, 0x32c6eff14b2237e9, 0x32c6f8f14b224734, 0x32c6f9f14b2248e7, 0x32c9f0f14b246f73,
  0x32c9eff14b246dc0, 0x32c9fef14b24873d, 0xe6af8c8f35c19f12, 0xde87758f3147c53d, 0x6163ca8f7baa346c, 0x65c075285d95e713,
  0x5f632f859736d577, 0x5f632e859736d3c4, 0x5f6331859736d8dd, 0x5f6330859736d72a, 0x5f632b859736ceab, 0x5f632a859736ccf8,
  0x5f632d859736d211, 0x5f632c859736d05e, 0x5f6327859736c7df, 0x5f6326859736c62c, 0x5f5fa9859733bbee, 0x5f5faa859733bda1,
  0x5f5fa7859733b888, 0x5f5fa8859733ba3b, 0x5f5fad859733c2ba, 0x5f5fae859733c46d, 0x5f5fab859733bf54, 0x5f5fac859733c107,
  0x5f5fa1859733ae56, 0x5f5fa2859733b009, 0x5f5c23859730a265, 0x5f5c22859730a0b2, 0x5f5c218597309eff, 0x5f5c208597309d4c,
  0x5f5c1f8597309b99, 0x5f5c1e85973099e6, 0x5f5c1d8597309833, 0x5f5c1c8597309680, 0x5f5c2b859730affd, 0x5f5c2a859730ae4a,
  0x5f591d85972e625c, 0x5f591e85972e640f, 0x5f591f85972e65c2, 0x5f592085972e6775, 0x5f591985972e5b90, 0x5f591a85972e5d43,
  0x5f591b85972e5ef6, 0x5f591c85972e60a9, 0x5f592585972e6ff4, 0x5f592685972e71a7, 0x5f559785972b48d3, 0x5f559685972b4720,
  0x5f559985972b4c39, 0x5f559885972b4a86, 0xbb121071dc33fc1d, 0x4f1a35343260ea84, 0x25d76944a2d70de2, 0x5391734b05b2b811,
  0xa98a1d52a0bf7040, 0x7f0c275dea2830ef, 0x7f0c265dea282f3c, 0xacc631644d03db1e, 0xacc632644d03dcd1, 0x6788096181994592,
  0xc265117ff054d38e, 0xc0bcc77ac8ea689f, 0xbdedd3691d030601, 0x1cdfcf9938bab93b, 0xd80ea7966dacf58f, 0x0415319ccf1631be,
  0x028c9d8b244434e0, 0xfbb2eb62a566fd15, 0x62e877d96e3729e7, 0x6423a1de95448c96, 0x9bbe9bc148e557fd, 0x49b0d9dd0435d08a,
  0x49b0dadd0435d23d, 0x742f4fd1bacde95b, 0x742f4ed1bacde7a8, 0xcc68885f05ed561c, 0xa4d8dc6f77d5445a, 0xd072c675d8e251c9,
  0xfe0d9a88bf266767, 0xff48c48de633ca16, 0x96d80e11f6563a95, 0x418e581c05627ea4, 0xe4d5fc8c55250e0a, 0x36e3be7099d4957d,
  0x13abfaa462768657, 0x3c822693f1a43439, 0x4fa4505bfcab40de, 0x58069696265a7587, 0xafb2c09dc2d99bb6, 0x80dcc285b5882369,
  0x82848c8adcf1b4d8, 0x2661846c6d21643c, 0x786f4650b1d0ebaf, 0xc9a473c04c12f884, 0x71f8a9b8af947575, 0xa061a7d0bc891be2,
  0xf5ab5dc6ad7cd7d3, 0x58069596265a73d4, 0xa061a8d0bc891d95, 0xa4c90ebe45b2b200, 0x7ec256e0626d403c, 0xa113336718fa0606,
  0xff5423087409737e, 0x3e50c7bde28885f3, 0x3e50c8bde28887a6, 0x6f03e1a52f7d3223, 0x1493f986c11eac67, 0x1493f886c11eaab4,
  0x1493fb86c11eafcd, 0x0b882ecc92227591, 0xcffcb7737538c11d, 0xcffcb6737538bf6a, 0xcffcb5737538bdb7, 0xf952eca9545be7a3,
  0x9ee3048ae5fd61e7, 0x9ee3038ae5fd6034, 0x9ee3068ae5fd654d, 0xc44a139615d5807e, 0x88be9c3cf8ebcc0a, 0x88be9d3cf8ebcdbd,
  0x88be9a3cf8ebc8a4, 0xfde94940751b7d08, 0x03589059057a8904, 0x03589159057a8ab7, 0x03589259057a8c6a, 0xa6d0b804dec5d165,
  0x4bf42fe6700b1ce9, 0x4bf42ee6700b1b36, 0x4bf42de6700b1983, 0xe680740c6be14efb, 0x2058eb6587596eef, 0x2058ea6587596d3c,
  0x2058ed6587597255, 0x7a36227f4c2cc35d, 0xb5c199d8691677d1, 0xb5c198d86916761e, 0xb5c197d86916746b, 0x6b42457f1c3f5457,
  0x4652ac96729e7f33, 0x4652ab96729e7d80, 0x4652ae96729e8299, 0xe5befd02102232ea, 0x214a745b2d0be75e, 0x214a755b2d0be911,
  0x214a725b2d0be3f8, 0x5cb29387a22d4afa, 0x96ba4beb8516340e, 0x96ba4ceb851635c1, 0x96ba49eb851630a8, 0xabf467237487bf28,
  0x5ca5ae3990e69c24, 0x5ca5af3990e69dd7, 0x5ca5b03990e69f8a, 0xa9b9415ffacd90c4, 0x4dc4fa4c526d2fc8, 0x4dc4fb4c526d317b,
  0x4dc4fc4c526d332e, 0x13e5616e29422f7a, 0x4ded19d20c2b188e, 0x4ded1ad20c2b1a41, 0x4ded17d20c2b1528, 0x359b53cad9d52791,
  0xfa0fdc71bceb731d, 0xfa0fdb71bceb716a, 0xfa0fda71bceb6fb7, 0x1303244b4f700044, 0xb70edd37a70f9f48, 0xb70ede37a70fa0fb,
  0xb70edf37a70fa2ae, 0xc36d985994a653f4, 0x3e9e5039ec471398, 0x3e9e5139ec47154b, 0x3e9e5239ec4716fe, 0x8a464b6ee75bfd4c,
  0xc56542c803e9b960, 0xc56543c803e9bb13, 0xc56544c803e9bcc6, 0x8f1edd81805ef8a4, 0xde6d966b64001ba8, 0xde6d976b64001d5b,
  0xde6d986b64001f0e, 0x7019147a364cbde3, 0x6c2e2c56dfef8d27, 0x6c2e2b56dfef8b74, 0x6c2e2e56dfef908d, 0xd50704a9b3bc059c,
  0x0ea1bd0d96481cd0, 0x0ea1be0d96481e83, 0x0ea1bf0d96482036, 0x7bddff2cb7692bb4, 0x4d93b708270b4058, 0x4d93b808270b420b,
  0x4d93b908270b43be, 0xb76a7f0c08a5d3bc, 0x9dfab76d78a429f0, 0x9dfab86d78a42ba3, 0x9dfab96d78a42d56, 0x5f4f11a6fcd08365,
  0x047289888e15cee9, 0x047288888e15cd36, 0x047287888e15cb83, 0x95e8e33c775f739a, 0x24ad9ba2ce46d8ae, 0x24ad9ca2ce46da61,
  0x24ad99a2ce46d548, 0x1d5825af90b533c6, 0x22c76cc821143fc2, 0x22c76dc821144175, 0x22c76ac821143c5c, 0x4625e3daee7fbca3,
  0xebb5fbbc802136e7, 0xebb5fabc80213534, 0xebb5fdbc80213a4d, 0x69f12b63ef3b0d93, 0x8ee0c44c98dbe2b7, 0x5fd7b5386e4e8864,
  0xaf266e2251efab68, 0xaf266f2251efad1b, 0xaf26702251efaece, 0x30d73d9eff1e1d08, 0x364684b78f7d2904, 0x364685b78f7d2ab7,
  0x364686b78f7d2c6a, 0xa043b85457fb671f, 0x3bdd3fef3b12d34b, 0x3bdd3eef3b12d198, 0x3bdd41ef3b12d6b1, 0x1fe5b66f00a81d14,
  0x44a66e4ce2d8cc38, 0x44a66f4ce2d8cdeb, 0x44a6704ce2d8cf9e, 0xa37b2da46abbe8a6, 0x542cf4ba871b9f22, 0x542cf5ba871ba0d5,
  0x542cf2ba871b9bbc]

/-- the ids of the tables of area 4 -/
def ids4 : List Nat := [
  0x6a59d3bf28acdb32, 0x2f55d900dc45419f, 0x6a59d1bf28acd7cc, 0x6a59d2bf28acd97f, 0x6a59d0bf28acd619, 0x6a59cdbf28acd100,
  0x6a59cebf28acd2b3, 0x2f55d700dc453e39, 0x6a59dbbf28ace8ca, 0x6a59dcbf28acea7d, 0x6a5d59bf28aff4bb, 0x6a5d58bf28aff308,
  0x6a5d5bbf28aff821, 0x2f595c00dc48560f, 0x6a5d5dbf28affb87, 0x6a5d5cbf28aff9d4, 0x6a5d5fbf28affeed, 0x6a5d51bf28afe723,
  0x6a5d50bf28afe570, 0x6a5347bf28a781a0, 0x6a5348bf28a78353, 0x6a5349bf28a78506, 0x6a534abf28a786b9, 0x6a534bbf28a7886c,
  0x6a534cbf28a78a1f, 0x6a534dbf28a78bd2, 0x6a534ebf28a78d85, 0x6a534fbf28a78f38, 0x6a56cdbf28aa9b29, 0x6a56ccbf28aa9976,
  0x6a56cbbf28aa97c3, 0x2f5fec00dc4db66d, 0x6a56cabf28aa9610, 0x6a56d1bf28aaa1f5, 0x6a56d0bf28aaa042, 0x6a56cfbf28aa9e8f,
  0x6a56cebf28aa9cdc, 0x6a56d5bf28aaa8c1, 0x6a56d4bf28aaa70e, 0x6a67cbbf28b90af6, 0x6a67ccbf28b90ca9, 0x6a67c9bf28b90790,
  0x6a67cabf28b90943, 0x6a67cfbf28b911c2, 0x6a67d0bf28b91375, 0x6a67cdbf28b90e5c, 0x6a67cebf28b9100f, 0x6a67d3bf28b9188e,
  0x2f485900dc39ddc3, 0x2f4b6600dc3c29b1, 0x6a6ad0bf28bb494c, 0x6a6ad3bf28bb4e65, 0x6a6acdbf28bb4433, 0x6a6accbf28bb4280,
  0x6a6acfbf28bb4799, 0x6a6acebf28bb45e6, 0x6a6ad9bf28bb5897, 0x6a6ad8bf28bb56e4, 0x6a60dfbf28b30e44, 0x6a60e0bf28b30ff7,
  0x6a60e1bf28b311aa, 0x6a60e2bf28b3135d, 0x6a60dbbf28b30778, 0x64aecfc1e9c3d9f1, 0xe36683b13a120647, 0xe36682b13a120494,
  0xc6376f8312694b7c, 0xc637708312694d2f, 0xc637718312694ee2, 0xc637728312695095, 0xc6376b83126944b0, 0xc6376c8312694663,
  0xc6376d8312694816, 0xc6376e83126949c9, 0xc637778312695914, 0xc637788312695ac7, 0xc63af583126c6505, 0xc63af483126c6352,
  0xc63af383126c619f, 0xc63af283126c5fec, 0xc63af183126c5e39, 0xc63af083126c5c86, 0xc63aef83126c5ad3, 0xc63aee83126c5920,
  0xbca38e03c9ca687e, 0xbca38d03c9ca66cb, 0xbca38c03c9ca6518, 0xbca39303c9ca70fd, 0x7db137c442aed477, 0xfd99a4ca1d544375,
  0xfd99a3ca1d5441c2, 0xfd99a2ca1d54400f, 0x32c9f6f14b2479a5, 0x32c9f5f14b2477f2, 0x5f632f859736d577, 0x5f632e859736d3c4,
  0x5f6331859736d8dd, 0x5f6330859736d72a, 0x5f632b859736ceab, 0x5f632a859736ccf8, 0x5f632d859736d211, 0x5f632c859736d05e,
  0x5f6327859736c7df, 0x5f6326859736c62c, 0x5f5fa9859733bbee, 0x5f5faa859733bda1, 0x5f5fa7859733b888, 0x5f5fa8859733ba3b,
  0x5f5fad859733c2ba, 0x5f5fae859733c46d, 0x5f5fab859733bf54, 0x5f5fac859733c107, 0x5f5fa1859733ae56, 0x5f5fa2859733b009,
  0x5f5c23859730a265, 0x5f5c22859730a0b2, 0x5f5c218597309eff, 0x5f5c208597309d4c, 0x5f5c1f8597309b99, 0x5f5c1e85973099e6,
  0x5f5c1d8597309833, 0x5f5c1c8597309680, 0x5f5c2b859730affd, 0x5f5c2a859730ae4a, 0x5f591d85972e625c, 0x5f591e85972e640f,
  0x5f591f85972e65c2, 0x5f592085972e6775, 0x5f591985972e5b90, 0x5f591a85972e5d43, 0x5f591b85972e5ef6, 0x5f591c85972e60a9,
  0x5f592585972e6ff4, 0x5f592685972e71a7, 0x5f559785972b48d3, 0x5f559685972b4720, 0x5f559985972b4c39, 0x5f559885972b4a86,
  0x5f559b85972b4f9f, 0x5f559a85972b4dec, 0x5f559d85972b5305, 0x5f559c85972b5152, 0x4f1a35343260ea84, 0x25d76944a2d70de2,
  0xa98a1d52a0bf7040, 0x7f0c275dea2830ef, 0x577c7b6e5c101f2d, 0xc265117ff054d38e, 0xc0bcc77ac8ea689f, 0xeb3abd6f7f81a7f0,
  0xbdedd3691d030601, 0xacc631644d03db1e, 0xbdedd2691d03044e, 0xf261d9a4822379ea, 0x0415319ccf1631be, 0xff9df385fbc46431,
  0x83836574bd79fe7c, 0x6788096181994592, 0x1cdfcf9938bab93b, 0xd80ea7966dacf58f, 0xcc68885f05ed561c, 0xcda3d2642cfaef2b,
  0xa4d8dc6f77d5445a, 0x26d8907d744c1238, 0xfe0d9a88bf266767, 0xff48c48de633ca16, 0x96d80e11f6563a95, 0x418e581c05627ea4,
  0xe4d5fc8c55250e0a, 0xe3b9e87aaaaf098c, 0x40f964aac4f601c6, 0x13abfaa462768657, 0x6889309a530e49e8, 0x3c822693f1a43439,
  0x3c822593f1a43286, 0x06f1ac46e20d18b2, 0xd9a4a2407f8e4063, 0x58069696265a7587, 0x58069596265a73d4, 0x58069896265a78ed,
  0xafb2c09dc2d99bb6, 0xafb2c19dc2d99d69, 0x80dcc285b5882369, 0x181ec104ddadfafb, 0x49325c9352d6fe35, 0x7ec256e0626d403c,
  0x0fe7c7a5d593dc20, 0x0fe7caa5d593e139, 0x0fe7c9a5d593df86, 0x11e3b0315a9db8b1, 0xd65838d83db4043d, 0xd65837d83db4028a,
  0xd65836d83db400d7, 0xe680740c6be14efb, 0x2058eb6587596eef, 0x2058ea6587596d3c, 0x2058ed6587597255, 0x7a36227f4c2cc35d,
  0xb5c199d8691677d1, 0xb5c198d86916761e, 0xb5c197d86916746b, 0x8e51750b5eb775a0, 0x53327db24229b98c, 0x53327eb24229bb3f,
  0x53327fb24229bcf2, 0x22b4b9d8ec78a773, 0x47a452c196197c97, 0x47a451c196197ae4, 0x47a454c196197ffd, 0xa18bca1fba797769,
  0xfc68523e29342be5, 0xfc68513e29342a32, 0xfc68503e2934287f, 0x74f99006bf1df995, 0x997c88ef68629ff9, 0x997c87ef68629e46,
  0x997c86ef68629c93, 0xcbc824216cf129e5, 0x70eb9c02fe367569, 0x70eb9b02fe3673b6, 0x70eb9a02fe367203, 0xde62430a26019073,
  0x0351dbf2cfa26597, 0x0351daf2cfa263e4, 0x0351ddf2cfa268fd, 0x7e6885e452c04311, 0x42dd0e8b35d68e9d, 0x42dd0d8b35d68cea,
  0x42dd0c8b35d68b37, 0xa9b9415ffacd90c4, 0x4dc4fa4c526d2fc8, 0x4dc4fb4c526d317b, 0x4dc4fc4c526d332e, 0xebb267557307b5ff,
  0x85996ef054ae672b, 0x85996df054ae6578, 0x859970f054ae6a91, 0x03b40eb53f427739, 0xdf3115cc95fdd0d5, 0xdf3114cc95fdcf22,
  0xdf3113cc95fdcd6f, 0xb549add0fbb4e11e, 0x79be3677decb2caa, 0x79be3777decb2e5d, 0x79be3477decb2944, 0x43f1f75c8859c78e,
  0x09ea3ef8a570de7a, 0x7c1ef5bab066b858, 0xaa693ddf40c4a3b4, 0xaa693edf40c4a567, 0xaa693fdf40c4a71a, 0x2be4440f60b027bc,
  0x12747c70d0ae7df0, 0x12747d70d0ae7fa3, 0x12747e70d0ae8156, 0x535cfb0c132afe2b, 0xb975f37131844cff, 0xb975f27131844b4c,
  0xb975f57131845065, 0x38865a58581a125b, 0x7411d1b17503c6cf, 0x7411d0b17503c51c, 0x7411d3b17503ca35, 0x719ab319152cac75,
  0x961d2c01be707959, 0x961d2b01be7077a6, 0x961d2a01be7075f3, 0xc0272de866874b95, 0xe4aa26d10fcbf1f9, 0xe4aa25d10fcbf046,
  0xe4aa24d10fcbee93, 0xaba3272412310022, 0xfaf1600df5d149a6, 0xfaf1610df5d14b59, 0xfaf15e0df5d14640, 0x4418cafb9ae0f8f7,
  0x1f293212f14023d3, 0x1f293112f1402220, 0x1f293412f1402739, 0x1f583f5782609cbd, 0x5ae3b6b09f4a5131, 0x5ae3b5b09f4a4f7e,
  0x5ae3b4b09f4a4dcb, 0x519961d10096cff3, 0x7688fab9aa37a517, 0x7688f9b9aa37a364, 0x7688fcb9aa37a87d, 0xa26b38e34424a441,
  0xbd210081d53b10ad, 0xbd20ff81d53b0efa, 0xbd20fe81d53b0d47, 0x1dd87d8fad092308, 0x2347c4a83d682f04, 0x2347c5a83d6830b7,
  0x2347c6a83d68326a, 0x85714105cf348588, 0x8ae0881e5f939184, 0x8ae0891e5f939337, 0x8ae08a1e5f9394ea, 0x5e324e1df8ea92fb,
  0x980ac5771462b2ef, 0x980ac4771462b13c, 0x980ac7771462b655, 0x1f9587a4771a0d70, 0x39054f43071bb73c, 0x39055043071bb8ef,
  0x39055143071bbaa2, 0x72afb1813e05c033, 0x979f4a69e7a69557, 0x5eb6a79b1b1ffb18, 0xe385efbac37f3b74, 0xe385f0bac37f3d27,
  0xe385f1bac37f3eda, 0x65503545ddda60fa, 0x9f57eda9c0c34a0e, 0x9f57eea9c0c34bc1, 0x9f57eba9c0c346a8]

/-- the ids of the tables of area 5 -/
def ids5 : List Nat := [
  0x6a59d3bf28acdb32, 0x6a59d4bf28acdce5, 0x6a59d1bf28acd7cc, 0x6a59d2bf28acd97f, 0x2f55db00dc454505, 0x2f55d400dc453920,
  0x6a59cdbf28acd100, 0x6a59cebf28acd2b3, 0x2f55d700dc453e39, 0x6a59dbbf28ace8ca, 0x6a5d59bf28aff4bb, 0x6a5d58bf28aff308,
  0x6a5d5bbf28aff821, 0x6a5d5abf28aff66e, 0x6a5d5dbf28affb87, 0x6a5d5cbf28aff9d4, 0x6a5d51bf28afe723, 0x6a5d50bf28afe570,
  0x6a5347bf28a781a0, 0x6a5348bf28a78353, 0x6a5349bf28a78506, 0x6a534bbf28a7886c, 0x6a534ebf28a78d85, 0x6a5350bf28a790eb,
  0x6a56cdbf28aa9b29, 0x6a56ccbf28aa9976, 0x6a56cbbf28aa97c3, 0x6a56cabf28aa9610, 0x6a56d1bf28aaa1f5, 0x6a56d0bf28aaa042,
  0x6a56cfbf28aa9e8f, 0x83bcf2f761dd011d, 0x6a56cebf28aa9cdc, 0x6a56d5bf28aaa8c1, 0x2f5fe100dc4da3bc, 0x2f486000dc39e9a8,
  0x2f486100dc39eb5b, 0x2f486200dc39ed0e, 0x2f486300dc39eec1, 0x2f486400dc39f074, 0x2f486500dc39f227, 0x2f486600dc39f3da,
  0x2f486700dc39f58d, 0x2f485800dc39dc10, 0x6a67d4bf28b91a41, 0x6a6ad1bf28bb4aff, 0x6a6ad0bf28bb494c, 0x6a6ad3bf28bb4e65,
  0x6a6ad2bf28bb4cb2, 0x6a6acdbf28bb4433, 0x6a6accbf28bb4280, 0x6a6acfbf28bb4799, 0x6a6acebf28bb45e6, 0x6a6ad9bf28bb5897,
  0x2f4b5d00dc3c1a66, 0x2f4eec00dc3f433a, 0x2f4eed00dc3f44ed, 0x6a60e1bf28b311aa, 0x6a60e2bf28b3135d, 0x6a60dbbf28b30778,
  0x6a60dcbf28b3092b, 0x6a60ddbf28b30ade, 0x6a60debf28b30c91, 0x6a60d7bf28b300ac, 0x6a60d8bf28b3025f, 0x6a6465bf28b627cd,
  0x6a6464bf28b6261a, 0x6a6463bf28b62467, 0x6a6462bf28b622b4, 0x6a6461bf28b62101, 0x6a645fbf28b61d9b, 0x6a645ebf28b61be8,
  0x2f525a00dc4233fb, 0x6a645cbf28b61882, 0x6a7563bf28c4979a, 0x6a7564bf28c4994d, 0x2f3a6a00dc2dbd4a, 0x6a7562bf28c495e7,
  0x2f3a6400dc2db318, 0x6a7560bf28c49281, 0x2f3a6600dc2db67e, 0x6a755ebf28c48f1b, 0x6a755bbf28c48a02, 0x6a755cbf28c48bb5,
  0x6a78c9bf28c77ac3, 0x6a78c8bf28c77910, 0x2f3dec00dc30d007, 0x2f3deb00dc30ce54, 0x6a78cdbf28c7818f, 0x6a78ccbf28c77fdc,
  0x6a78cfbf28c784f5, 0x6a78cebf28c78342, 0x6a78d1bf28c7885b, 0x6a78d0bf28c786a8, 0x6c940ad222fc8831, 0x6c9409d222fc867e,
  0x6c9408d222fc84cb, 0x6c9407d222fc8318, 0x83b2daf761d483d0, 0x83b2dbf761d48583, 0xbca38f03c9ca6a31, 0xbca38e03c9ca687e,
  0xbca38d03c9ca66cb, 0xbca38c03c9ca6518, 0x7db137c442aed477, 0xfd99a4ca1d544375, 0xfd99a2ca1d54400f, 0x64aecfc1e9c3d9f1,
  0xe36683b13a120647, 0xe36682b13a120494, 0xc6376f8312694b7c, 0xc637708312694d2f, 0xc637718312694ee2, 0xc637728312695095,
  0xc6376b83126944b0, 0xc6376c8312694663, 0xc6376d8312694816, 0xc6376e83126949c9, 0xc637778312695914, 0xc637788312695ac7,
  0xc63af583126c6505, 0xc63af483126c6352, 0xc63af383126c619f, 0xc63af283126c5fec, 0x32c9f4f14b24763f, 0x32c9f3f14b24748c,
  0x5f632f859736d577, 0x5f632e859736d3c4, 0x5f6331859736d8dd, 0x5f6330859736d72a, 0x5f632b859736ceab, 0x5f632a859736ccf8,
  0x5f632d859736d211, 0x5f632c859736d05e, 0x5f6327859736c7df, 0x5f6326859736c62c, 0x5f5fa9859733bbee, 0x5f5faa859733bda1,
  0x5f5fa7859733b888, 0x5f5fa8859733ba3b, 0x5f5fad859733c2ba, 0x5f5fae859733c46d, 0x5f5fab859733bf54, 0x5f5fac859733c107,
  0x5f5fa1859733ae56, 0x5f5fa2859733b009, 0x5f5c23859730a265, 0x5f5c22859730a0b2, 0x5f5c218597309eff, 0x5f5c208597309d4c,
  0x5f5c1f8597309b99, 0x5f5c1e85973099e6, 0x5f5c1d8597309833, 0x5f5c1c8597309680, 0x5f5c2b859730affd, 0x5f5c2a859730ae4a,
  0x5f591d85972e625c, 0x5f591e85972e640f, 0x5f591f85972e65c2, 0x5f592085972e6775, 0x5f591985972e5b90, 0x5f591a85972e5d43,
  0x5f591b85972e5ef6, 0x5f591c85972e60a9, 0x5f592585972e6ff4, 0x5f592685972e71a7, 0x5f559785972b48d3, 0x5f559685972b4720,
  0x5f559985972b4c39, 0x5f559885972b4a86, 0x5f559b85972b4f9f, 0x4f1a35343260ea84, 0x4f1a36343260ec37, 0x25d76944a2d70de2,
  0x5391734b05b2b811, 0xacc631644d03db1e, 0x577c7b6e5c101f2d, 0x6788096181994592, 0x9272ff56388d56c3, 0x8f17d5510fb18db4,
  0xc265117ff054d38e, 0xc0bcc77ac8ea689f, 0xbdedd3691d030601, 0x1cdfcf9938bab93b, 0xd80ea7966dacf58f, 0x0415319ccf1631be,
  0xff9df385fbc46431, 0x888ff0b28ec8f7a7, 0x04701ca490838d09, 0x04701ba490838b56, 0x2f5b32994777d49a, 0x2f5b33994777d64d,
  0x01a12892e49c2a6b, 0x01a12792e49c28b8, 0x2ae3f4827426070d, 0x2ae3f3827426055a, 0xd337aa7ad7a6aa7e, 0xd337ab7ad7a6ac31,
  0xc2bf7c87b1c15559, 0xc2bf7b87b1c153a6, 0xf079868e149cff88, 0x46df5095b006bff7, 0xbed494645b64249d, 0xbed493645b6422ea,
  0x153a3e6bf6cdaeac, 0x153a3f6bf6cdb05f, 0x1809527da2b547aa, 0x1809537da2b5495d, 0x1809507da2b54444, 0xba5d364d881220b0,
  0xba5d374d88122263, 0xe958d61a742ff910, 0xe958d71a742ffac3, 0x16f32a2d5a73352e, 0x16f32b2d5a7336e1, 0xcc68885f05ed561c,
  0xcda3d2642cfaef2b, 0xa4d8dc6f77d5445a, 0xd072c675d8e251c9, 0x26d8907d744c1238, 0xfe0d9a88bf266767, 0xff48c48de633ca16,
  0x96d80e11f6563a95, 0x96d80d11f65638e2, 0xe4d5fc8c55250e0a, 0x0f5472810bbd26db, 0xe3b9e87aaaaf098c, 0x36e3be7099d4957d,
  0x40f964aac4f601c6, 0x13abfaa462768657, 0x3c822693f1a43439, 0xd9a4a2407f8e4063, 0x58069696265a7587, 0xafb2c09dc2d99bb6,
  0x80dcc285b5882369, 0x82848c8adcf1b4d8, 0xba9e13afe4a02395, 0xba9e10afe4a01e7c, 0x6f03e1a52f7d3223, 0x1493f986c11eac67,
  0x1493f886c11eaab4, 0x1493fb86c11eafcd, 0x21c03b7ff717bbab, 0x87d933e515710a7f, 0x87d932e5157108cc, 0x87d935e515710de5,
  0x2636af8bb69216a3, 0xcbc6c76d483390e7, 0xcbc6c66d48338f34, 0xcbc6c96d4833944d, 0xc44a139615d5807e, 0x88be9c3cf8ebcc0a,
  0x88be9d3cf8ebcdbd, 0x88be9a3cf8ebc8a4, 0xfde94940751b7d08, 0x03589059057a8904, 0x03589159057a8ab7, 0x03589259057a8c6a,
  0x22b4b9d8ec78a773, 0x47a452c196197c97, 0x47a451c196197ae4, 0x47a454c196197ffd, 0xa18bca1fba797769, 0xfc68523e29342be5,
  0xfc68513e29342a32, 0xfc68503e2934287f, 0xcd9d902584fadc0b, 0x3204088aa1e36fdf, 0x3204078aa1e36e2c, 0x32040a8aa1e37345,
  0x1303244b4f700044, 0xb70edd37a70f9f48, 0xb70ede37a70fa0fb, 0xb70edf37a70fa2ae, 0x03b40eb53f427739, 0xdf3115cc95fdd0d5,
  0xdf3114cc95fdcf22, 0xdf3113cc95fdcd6f, 0x00c756ff484b9dd6, 0x87491f1ef21b9932, 0x8749201ef21b9ae5, 0x87491d1ef21b95cc,
  0x5d27a6ce8f149aba, 0x972f5f3271fd83ce, 0x972f603271fd8581, 0x972f5d3271fd8068, 0x8a464b6ee75bfd4c, 0xc56542c803e9b960,
  0xc56543c803e9bb13, 0xc56544c803e9bcc6, 0x225ab5796a9b35a8, 0xd30bfc8f86fa12a4, 0xd30bfd8f86fa1457, 0xd30bfe8f86fa160a,
  0x11ef632709a94392, 0x38631b04ed4b8736, 0x38631c04ed4b88e9, 0x38631904ed4b83d0, 0x2c5861d521aa1336, 0x05e4a9f73e07cf92,
  0x05e4aaf73e07d145, 0x05e4a7f73e07cc2c, 0x38865a58581a125b, 0x7411d1b17503c6cf, 0x7411d0b17503c51c, 0x7411d3b17503ca35,
  0x719ab319152cac75, 0x961d2c01be707959, 0x961d2b01be7077a6, 0x961d2a01be7075f3, 0x920d11dab8d7b9c7, 0x97ab79fe10a75883,
  0x97ab78fe10a756d0, 0x97ab7bfe10a75be9, 0xefc729c7f6fe3183, 0xea28c1a49f2e92c7, 0xea28c0a49f2e9114, 0xea28c3a49f2e962d,
  0xaabdaaf4803c7b93, 0xcfad43dd29dd50b7, 0xcfad42dd29dd4f04, 0xcfad45dd29dd541d, 0x44b4ae7881b41f32, 0xbe32e658d7e423d6,
  0x267c94c0e8327c6d, 0xb541cd273f1abb01, 0xb541cc273f1ab94e, 0xb541cb273f1ab79b, 0x05b82458a398abfa, 0x3fbfdcbc8681950e,
  0x3fbfddbc868196c1, 0x3fbfdabc868191a8, 0x1d5825af90b533c6, 0x22c76cc821143fc2, 0x22c76dc821144175, 0x22c76ac821143c5c,
  0xa26b38e34424a441, 0xbd210081d53b10ad, 0xbd20ff81d53b0efa, 0xbd20fe81d53b0d47, 0x5fd7b5386e4e8864, 0xaf266e2251efab68,
  0xaf266f2251efad1b, 0xaf26702251efaece, 0x1f9587a4771a0d70, 0x39054f43071bb73c, 0x39055043071bb8ef, 0x39055143071bbaa2,
  0x433a2d3ef14d5e5f, 0xded3b4d9d464ca8b, 0xded3b3d9d464c8d8, 0xded3b6d9d464cdf1, 0x23ad04e3df914a0b, 0x88137d48fc79dddf,
  0x88137c48fc79dc2c, 0x88137f48fc79e145, 0xda1d5c5459e77470, 0xf38d23f2e9e91e3c, 0xf38d24f2e9e91fef, 0xf38d25f2e9e921a2,
  0xec7666812a3ac3c3, 0x9052fe62ba69d007, 0x9052fd62ba69ce54, 0x90530062ba69d36d, 0xecbf77b8f7302126, 0x9d713ecf138fd7a2,
  0x9d713fcf138fd955, 0x9d713ccf138fd43c]

end Verif.Data
