import Verif.Proofs.CacheLengthRows

/-! # Certificates for the second kind of product, negative `k`

Generated: the entry `b * 2^64 + d` for the exponent `-2 + i` holds the denominators of the neighbours of `2^(e+q-p) 10^k`
among the fractions with denominators up to `2^(p+1)`; an entry below `2^64` is a factor for which the integer part is
wrong. -/

namespace Grisu.CacheLength

def twoCerts32 : List Nat := [
  0x1000000,
  0x50000000000fffffd,
  0x50000000000fffffe,
  0x190000000000fffff4,
  0x190000000000fffff2,
  0x190000000000fffff1,
  0xa57ecd,
  0xe07098,
  0x7d0000000000ffffea,
  0x7d0000000000ffff89,
  0x2710000000000fffe8f,
  0x2710000000000fffe9d,
  0xdca93b,
  0xc350000000000fff4e0,
  0xe8d5b3,
  0xc350000000000fff6ba,
  0x3d090000000000ffde50,
  0x3d090000000000fff709,
  0xdb6a80,
  0x3d090000000000ffdbcd,
  0x1312d0000000000fee7a9,
  0x1312d0000000000ff9a3a,
  0x1312d0000000000ff5aec,
  0x5f5e10000000000fe29bf,
  0x5f5e10000000000ff3b45,
  0x5f5e10000000000ffc408,
  0x1dcd650000000000f3d846,
  0xd35452,
  0x1dcd650000000000fead22,
  0xbaf15b,
  0x9502f900000000007f5691,
  0x9502f900000000008a2cc5,
  0x9502f900000000008f97df,
  0x9fd92d000000000084c1ab,
  0x9fd92d0000000000924d6c,
  0xe8ffe300000000004926b6,
  0x9fd92d0000000000cde861,
  0x9fd92d0000000000b6e0c7,
  0xab5cfa0000000000b6e0c7,
  0x55ae7d0000000000b6e0c7,
  0x4a2ab00000000000cde861,
  0x2515580000000000f2fdb9,
  0x128aac0000000000f2fdb9,
  0x5cb55c0000000000cde861,
  0x2e5aae0000000000fc430f,
  0x172d570000000000fc430f,
  0x73e2b300000000009f8db3,
  0xfd9ae6000000000089b833,
  0x7ecd73000000000089b833,
  0x8442d3000000000089b833,
  0x8442d300000000009f8db3,
  0x8442d3000000000091e843,
  0x8442d300000000008b158b,
  0x6fcaab000000000091e843,
  0x80d977000000000091e843,
  0x80d97700000000008960dd,
  0x7852110000000000a2f70f,
  0x78521100000000008da490,
  0xbf2459000000000046d248,
  0xe28d7d0000000000236924,
  0xf77eed0000000000236924,
  0xf77eed000000000011b492,
  0xf77eed000000000008da49,
  0xe5ca5b00000000002c436d,
  0xe18dbe00000000002c436d,
  0xf5912600000000002c436d,
  0x70c6df0000000000dd5121,
  0xa70c000000000000dd5121,
  0x5386000000000000dd5121,
  0x29c3000000000000dd5121,
  0x29c3000000000000e596a5,
  0x14e1800000000000fa7825,
  0xa70c00000000000fa7825,
  0x3433c00000000000f00765,
  0x1a19e00000000000f00765,
  0xd0cf00000000000fd1455,
  0x4140b00000000000f00765,
  0x20a0580000000000f00765,
  0x10502c0000000000f00765,
  0x828160000000000f82f7b,
  0x28c86e0000000000f00765,
  0x1464370000000000f00765,
  0x1464370000000000fc8f18,
  0x65f5130000000000fc8f18,
  0x65f5130000000000e43c9f,
  0x65f5130000000000a518d9,
  0xb397ad0000000000a518d9,
  0xac58430000000000a518d9,
  0xac58430000000000a8b88e,
  0xac58430000000000545c47,
  0xac58430000000000f97520,
  0xac584300000000007cba90,
  0xeab58b00000000003e5d48,
  0xeab58b00000000004d1cdd,
  0xeab58b00000000009be934,
  0xeab58b00000000004df49a,
  0xeab58b00000000009b1177,
  0xeab58b0000000000c2e381,
  0xd6cc86]

def twoCerts64_0 : List Nat := [
  0x20000000000000,
  0x5001fffffffffffff,
  0x5001ffffffffffffc,
  0x1af286bca1af2f,
  0x19001fffffffffffe9,
  0x19001fffffffffffec,
  0x7d001fffffffffffec,
  0x12f684bda12fb7,
  0x1681681681681c,
  0x7d001fffffffffffc6,
  0x271001fffffffffffc6,
  0x271001ffffffffffdf3,
  0x271001ffffffffffe42,
  0xc35001ffffffffffe42,
  0xc35001ffffffffff84f,
  0xc35001ffffffffffb70,
  0x3d09001fffffffffef3b,
  0x3d09001fffffffffeab1,
  0x3d09001fffffffffe86c,
  0x3d09001fffffffffc8c5,
  0x1ff78241675f2f,
  0x1312d001fffffffffd776,
  0x1312d001fffffffff8341,
  0x5f5e1001ffffffffbefba,
  0x160ab09f3d177d,
  0x16a3b137d19e45,
  0x11eace189307fd,
  0x12b87e244fae02,
  0x1490a9b5bbc199,
  0x199c9dcbaef92a,
  0x1f7a47517160a2,
  0x9502f9001fffffffe301d1,
  0x9502f9001fffffffbe6e76,
  0x1bae8a907ae7b2,
  0x2e90edd001fffffff61a34c,
  0x2e90edd001ffffffe9e3abe,
  0xe8d4a51001ffffff5e30e27,
  0xe8d4a51001ffffff2984b03,
  0x1ef5a36db83b40,
  0xe8d4a51001ffffffead82f9,
  0x48c27395001fffffc47859b5,
  0x48c27395001fffffcb55a679,
  0x48c27395001fffffcec44cdb,
  0x190e6f3a85619b,
  0x1c3d5ff630f5f1,
  0x16bcc41e9001ffffed2aeb51b,
  0x1aa7d9d59bf644,
  0x71afd498d001ffffd9de21eae,
  0x199d716c375f46,
  0x71afd498d001ffffc5b559d62,
  0x2386f26fc1001fffee255b0a48,
  0x2386f26fc1001ffffe83e7f5af,
  0x2386f26fc1001ffff4efb53382,
  0xb1a2bc2ec5001fffd168c2c3c1,
  0xb1a2bc2ec5001fff97543dbb09,
  0xb1a2bc2ec5001fff7a49fb36ad,
  0x19bd497ea95fd4,
  0x3782dace9d9001ffe087f6196f5,
  0x1542e59099ad4b,
  0x191224e37c2353,
  0x1158e460913d001fff080fa2eb7a,
  0x1158e460913d001ffd7690d759f9,
  0x1158e460913d001ff4015f41489a,
  0x56bc75e2d631001ff4015f41489a,
  0x56bc75e2d631001fe69a5445f74c,
  0x56bc75e2d631001fdfe6cec84ea5,
  0x1b1ae4d6e2ef5001fdfe6cec84ea5,
  0x1af2e05eb0588b,
  0x1b1ae4d6e2ef5001f43165c5d1952,
  0x1819f2b1557772,
  0x878678326eac90019cba0fec3a667,
  0x878678326eac900199a6bc41c3361,
  0x878678326eac9001981d126c879de,
  0x85fcce5d3314600199a6bc41c3361,
  0x42fe672e998a3001dca523705cc04,
  0x1744f6015617480013150f8e6c7ea5,
  0x14ef803e8ffb2f000ee5291b82e602,
  0x1c6214cc516e30000772948dc17301,
  0x1d163381ab9d1a000772948dc17301,
  0xe8b19c0d5ce8d0015fdae4e97418e,
  0x1ff60074a2df2a00005a0f5aad1775,
  0x12175c5a5ffc530012716bb50d13c8,
  0x1b501234e68637000938b5da8689e4,
  0x1af602da396ec2000992c53533a159,
  0xd7b016d1cb76100170dc6a25058ba,
  0x1901e4be44e3be000b86e351282c5d,
  0x1f41e1bf48b04001e48cb0e694399,
  0xfa0f0dfa4582001f42da1c63891b,
  0x7d0786fd22c1001fbfe1a360abdc,
  0x1e86d2a35a688c,
  0x1ffde93851d0cf001d8cc39560230a,
  0x1ffde93851d0cf000ec661cab01185,
  0x1762258180f12a000ec661cab01185,
  0x1eb5966a55fa7900062a9e13df31e0,
  0x1eb5966a55fa790003154f09ef98f0,
  0x1eb5966a55fa7900018aa784f7cc78,
  0x1d2aeee55e2e010007b54598d6fe58,
  0x1d2aeee55e2e010003daa2cc6b7f2c,
  0x1f18404b93ed970001ed516635bf96,
  0x1d2aeee55e2e010009a296ff0cbdee,
  0x1d2aeee55e2e010004d14b7f865ef7,
  0x1f71ffb10563610004d14b7f865ef7,
  0x1f71ffb1056361001221a59845e12c,
  0x15cf68b1f8a5730016f2f117cc4023,
  0x16612ce4e272cb0016f2f117cc4023,
  0x16612ce4e272cb0016aa0efe575977,
  0x16612ce4e272cb0017cd97642af427,
  0x16612ce4e272cb001717622486b379,
  0x16612ce4e272cb0016bc4784b49322,
  0x160612451052740017cd97642af427,
  0xb03092288293a0017cd97642af427,
  0x581849144149d001d4f1bf56f08c4,
  0x581849144149d001f2c1bae83c239,
  0x581849144149d001d39a15b74f102,
  0x1f215e6186b658,
  0x581849144149d001a93b8534b8466,
  0x1b8796d654671100151233c2076fc9,
  0x1b8796d654671100184ce54c2deb6d,
  0x19ea3e1141293f00184ce54c2deb6d,
  0x1d24ef9b67a4e300151233c2076fc9,
  0x191b91aeb78a5600151233c2076fc9,
  0xc8dc8d75bc52b00151233c2076fc9,
  0xc8dc8d75bc52b001d5dc7240d5fa5,
  0x1cb3408a1c2f5f000442357555d54f,
  0x1d415b5fba8244000442357555d54f,
  0xea0adafdd41220012e2e325331671,
  0x1e8d4dd9f7f094000442357555d54f,
  0x1c0d474cfd7837000442357555d54f,
  0x1027be6129a6c3001469f3d67f7c12,
  0x1c0d474cfd78370018ac294bd55161,
  0x1a5cb84c6964cc0018ac294bd55161,
  0xd2e5c2634b2660018ac294bd55161,
  0x6972e131a5933001f43575eefaa94,
  0x1b08f0094136b001f43575eefaa94,
  0x11523ab00be8b5000fa1abaf77d54a,
  0x19231087c7d35a0007d0d5d7bbeaa5,
  0x1cf0d3333320b7,
  0x14625e1b9fd4520012b1cf1b0bc0e7,
  0xa312f0dcfea29001ce2fe28dbab10,
  0x19740b1d5c0e93000880a00d3bd6be,
  0x1db45b23f9f9f200044050069deb5f,
  0x1b9b1da5d6bf16001fdb6dac74aa75,
  0xdcd8ed2eb5f8b001fdb6dac74aa75,
  0x54ceec5af88cd001fdb6dac74aa75,
  0x12942e391219a1001fdb6dac74aa75,
  0x1937cdf2c3620b,
  0x54ceec5af88cd001be52fdac6e145,
  0x15e5fe15eabdd60010990f503b3509,
  0xaf2ff0af55eeb001b8c0e5b3093f4,
  0x54ceec5af88cd001c3e515a5d2e96,
  0x1e05f4fe3d31b20018b906388da8e5,
  0xf02fa7f1e98d90018b906388da8e5,
  0x13de005bd620df0018b906388da8e5,
  0x13de005bd620df0018471d4f95a81e,
  0x13de005bd620df000c238ea7cad40f,
  0x13de005bd620df001000c781d07a77,
  0x13de005bd620df001469e4759001b6,
  0x13de005bd620df001e12f2969e21ba,
  0x13de005bd620df000f09794b4f10dd,
  0x13de005bd620df000f955d6508f1b4,
  0x13de005bd620df001ba8af0e5a99b9,
  0x13de005bd620df0017c357b5185d4c,
  0x13de005bd620df001fbfac36624f85,
  0x1c3da07aab05d60003e55759423c6d,
  0x19ced6491c3832,
  0x15e97eefd9fbc5000ce76b248e1c19,
  0x1eeb92bb25db710010ccc27dd05886,
  0x1eeb92bb25db71000866613ee82c43,
  0x1c0f5b3bef301d000866613ee82c43,
  0x1eeb92bb25db7100058a29bfb180ef,
  0x1eeb92bb25db7100123ade3d6bae30,
  0x1eeb92bb25db7100091d6f1eb5d718,
  0x1eeb92bb25db7100048eb78f5aeb8c,
  0x15ce239c7004590016c995ccc699bc,
  0x15ce239c700459000b64cae6634cde,
  0x1b80890fa1aac80005b2657331a66f,
  0x15ce239c700459001c7bfb3ff8402b,
  0x19250f6e342242001c7bfb3ff8402b,
  0xc9287b71a1121001c7bfb3ff8402b,
  0x1d777061d92a8b000356ebd1c41de9,
  0x1dc2dd60df1bde000356ebd1c41de9,
  0xee16eb06f8def0012385a8233abd8,
  0x17fd9bf18963db00091c2d4119d5ec,
  0x14a6b01fc545f2000c731912ddf3d5,
  0xa53580fe2a2f90016c67122c096ce,
  0x15b690a142ee60000b633891604b67,
  0x943778e64fa8b0017d651a43e3f3c,
  0x152ea060841a29000beb28d21f1f9e,
  0x1b2434c993a9f80005f594690f8fcf,
  0xf390bf7748a5a001dcbe60d4dcf0b,
  0x79c85fbba452d001dcbe60d4dcf0b,
  0x1a50bc003e4f490012b43604840a1c,
  0x1a50bc003e4f49000e92da15d944b1,
  0x1a50bc003e4f49001471cb0b0bc9fd,
  0x17614385a50ca3,
  0x1a50bc003e4f490018d8ffc2f1adf6,
  0x177bc3d4ca153001fc5abb8dcb261,
  0x177bc3d4ca153001f4c0e6012f718,
  0x177bc3d4ca153001fcb1dd2546a1d,
  0x756ad327f269f001cdba557bb2777,
  0x121929451d270b001cdba557bb2777,
  0x121929451d270b00177a674e6c2741,
  0x1ed11480eb4de0001cdba557bb2777,
  0xf688a4075a6f0001cdba557bb2777,
  0x7b445203ad378001cdba557bb2777,
  0x3da22901d69bc001cdba557bb2777,
  0x3da22901d69bc001cba2dd335614b,
  0x1ed11480eb4de001ea73f1b441629,
  0xf688a4075a6f001f9dc7bf4b7098,
  0xf688a4075a6f001fecfaccb5ec2b,
  0xf688a4075a6f001fda4bf8d44a3d,
  0xf688a4075a6f001fd0f48ee37946,
  0x4d0ab3424c42b001bf6d1fec60f8a,
  0x4d0ab3424c42b001c6d6a9bd15446,
  0x4d0ab3424c42b001ca8b6ea56f6a4,
  0x4d0ab3424c42b001cc65d1199c7d3,
  0x18135804b7d4d7001cc65d1199c7d3,
  0x1a6cda8b28ce55001cc65d1199c7d3,
  0x1b999bce614b14001cc65d1199c7d3,
  0x16e696c17f5818001cc65d1199c7d3,
  0xb734b60bfac0c001cc65d1199c7d3,
  0x5b9a5b05fd606001cc65d1199c7d3,
  0x1ca03c71df2e1e000b996c007a45c1,
  0xe501e38ef970f0019e98a3969dcd0,
  0x1b44e355a48577000cf4c51cb4ee68,
  0x1b44e355a4857700067a628e5a7734,
  0x14ca80c74a0e43000b996c007a45c1,
  0x14ca80c74a0e43001031f663e22a02,
  0x1ce37bf93b2344000818fb31f11501,
  0x1dfb958e19d6c500038070ce8930c0,
  0x1fbbcdf55e6f250001c03867449860,
  0x1fbbcdf55e6f250000e01c33a24c30,
  0x1fbb0c8beb04890000e01c33a24c30,
  0x1fbb0c8beb04890000700e19d12618,
  0x1ff31398d39795000038070ce8930c,
  0x1ff31398d3979500001c0386744986,
  0x1fef4c8992828900001c0386744986,
  0x1ffd4e4ccca74c00000e01c33a24c3,
  0x1ff8a9d4b8421200000e01c33a24c3,
  0x1fcea48b09d3c900004608d022b7cf]

def twoCerts64_1 : List Nat := [
  0x1fe855d573eab200004608d022b7cf,
  0x1fd22a12979a3f00004608d022b7cf,
  0x1fd22a12979a3f00015e2c10ad970b,
  0x1fa40fc918161e00015e2c10ad970b,
  0x1d7fc08b53f17d001eddec9c018888,
  0x1d7fc08b53f17d000f6ef64e00c444,
  0xe10ca3d532d390014e7a690b72070,
  0xe10ca3d532d390018849d85aebd71,
  0xe10ca3d532d3900134ab3e180f555,
  0x39cf6f4f79d01001dbe8729dc858d,
  0x10adbf0f6a1147001dbe8729dc858d,
  0x10adbf0f6a1147001736231ca34b6a,
  0xdc251f7287425001736231ca34b6a,
  0x195d63857a19da000b9b118e51a5b5,
  0x1849c3510eb2a2000b9b118e51a5b5,
  0x17bff336d8ff06000b9b118e51a5b5,
  0x17bff336d8ff06000a877159e63e7d,
  0xbdff99b6c7f830016676af552be00,
  0xbdff99b6c7f83001713af1615de83,
  0xd3881dcf2c089001713af1615de83,
  0x12261879844f86001713af1615de83,
  0x9130c3cc227c3001713af1615de83,
  0xd3881dcf2c0890012ee3975e545bd,
  0x1d4bdf865ec3ac0010135da96c0323,
  0x1eb94d6c9b64f90010135da96c0323,
  0x1766558b03b40e0010135da96c0323,
  0x148b79be8a71740010135da96c0323,
  0x1a591a88b13bdd0010135da96c0323,
  0x15363c190e9f800010135da96c0323,
  0x15363c190e9f800010be2003f0312f,
  0xa9b1e0c874fc0001b593e107780ef,
  0x54d8f0643a7e0001b593e107780ef,
  0x160baf0a33d90f,
  0xd41e58fa923b000160baf0a33d90f,
  0x6a0f2c7d491d8001caca1d2086ae7,
  0x3507963ea48ec001ffd1b35f2b3d3,
  0x10925ef3936c9c0012bb35a6499023,
  0x8492f79c9b64e001b046520134671,
  0x42497bce4db27001f28fcdcf82198,
  0x14b6f6b07847c3001f28fcdcf82198,
  0x14b6f6b07847c3000f947e6e7c10cc,
  0x14b6f6b07847c3001c8135e7b65029,
  0x19ac5949ed12d30007ca3f373e0866,
  0x1d9178e58c17060003e51f9b9f0433,
  0x1e5d3ae1421c4f0003e51f9b9f0433,
  0x1cd08c114d9cda0003e51f9b9f0433,
  0x11212d3e7090410013799e0a1b14ff,
  0x11212d3e70904100124d65a445d2a0,
  0x1a47e010937991000926b2d222e950,
  0x1faed954af721c00012c3865d5425f,
  0x15b486a78204e90016e0bf0d574748,
  0x15b486a78204e9000b705f86aba3a4,
  0x1f6504e1067e0a00012c3865d5425f,
  0x1b6cb66ad7d6bb001c98eed0ad191a,
  0x1b6cb66ad7d6bb000e4c7768568c8d,
  0xd203f02814a2e0012fd58ffab9609,
  0x6901f8140a51700198d7880ec3b20,
  0x6901f8140a5170019e6fb42f767be,
  0x1a13bca3fcfe0d0013839d22bc58f6,
  0x6901f8140a517001ff0d6a12749e8,
  0x6901f8140a517001d18aa5314ef22,
  0x1bac942c0bc1bf00151c74aacb1ca8,
  0xbb428db781ccb00151c74aacb1ca8,
  0x16426330ddab1f000a8e3a55658e54,
  0x1b89805b9072490005471d2ab2c72a,
  0xbb428db781ccb001a6391d57de3d2,
  0x18e5f1c6370eb4000d31c8eabef1e9,
  0x19a4c1cdda7943000d31c8eabef1e9,
  0x136b455c4cb596000d31c8eabef1e9,
  0x136b455c4cb596001b2261dd214e61,
  0x9b5a2ae265acb001b2261dd214e61,
  0x9b5a2ae265acb001c21a4f3ca2f61,
  0xab4e5c4cf3bcb001b2261dd214e61,
  0x12eba3d0f84516,
  0x1da08995c780e1000975d1e87c228b,
  0x1edf9d721a9a21000836be0c29094b,
  0x138b2dbf21d1b6001bc1ebcb4adb01,
  0x9c596df90e8db001bc1ebcb4adb01,
  0x1c895834fecac9,
  0x1c895834fecac9,
  0xa294d146ae0bf001c895834fecac9,
  0x135952a4b4d5c4001c895834fecac9,
  0xa294d146ae0bf00199d81a89c079b,
  0xa294d146ae0bf001c0cb472ee54ec,
  0x182fa74de20b35000e065a39772a76,
  0xa294d146ae0bf001d7a8ecda85152,
  0xa294d146ae0bf0018e6947b3f0968,
  0xa294d146ae0bf00169c97520a6573,
  0x1062f2333aa31900169c97520a6573,
  0x19e7ecead75a53000639a51ecfc25a,
  0x1d04bf7a3f3b8000031cd28f67e12d,
  0x1e127c8a2703a100031cd28f67e12d,
  0x1af5a9fabf2274000f901ccd0765e1,
  0xd7ad4fd5f913a001d0af1ca66f71b,
  0x6bd6a7eafc89d001d0af1ca66f71b,
  0x4a822af07f3f6001d0af1ca66f71b,
  0x1f5f0321eaf116001d0af1ca66f71b,
  0xfaf8190f5788b001d0af1ca66f71b,
  0x165d39adae37d3001d0af1ca66f71b,
  0xfaf8190f5788b0011b516fea643dd,
  0xfaf8190f5788b0010b24c47cdde34,
  0x1808a7b4dc67a50008592623e6ef1a,
  0x7565b6d0e8971001b1107d96598a0,
  0x7565b6d0e8971001c353ac6cfdf32,
  0x1570f8d076790a000e1a9d6367ef99,
  0x921976b52349001f8ce3f4ea71a4,
  0x120ed7d549c5f600117cbe5e94a2ad,
  0x1a842a493985a800117cbe5e94a2ad,
  0xd4215249cc2d4001ebed383316581,
  0x1ebed383316581,
  0x2666158568191001ebed383316581,
  0x10929a6dc3f389001ebed383316581,
  0x155f5d1e70f6ab001ebed383316581,
  0x1a0f1850d12e16001ebed383316581,
  0xd078c2868970b001ebed383316581,
  0x857d0f6085fa0001fc678f1e974b7,
  0x42be87b042fd0001fc678f1e974b7,
  0x215f43d8217e8001fc678f1e974b7,
  0x10afa1ec10bf4001fc678f1e974b7,
  0x536e299c53bc4001ebb7ed32868c3,
  0x29b714ce29de2001ebb7ed32868c3,
  0x14db8a6714ef1001ebb7ed32868c3,
  0x6849b40368ab5001d6dc62cb719d2,
  0x1bc01996c8a253,
  0x11225a6b7f9684001bc01996c8a253,
  0x1c7de455fe346f00041923eb12811a,
  0x1e8a764b8774fc00020c91f589408d,
  0x156af1065f7c2500177782fbe8bcb2,
  0x156af1065f7c25000bbbc17df45e59,
  0x9af2f886b1dcc001d9d38dc847e59,
  0x4d797c4358ee6001d9d38dc847e59,
  0x26bcbe21ac773001d9d38dc847e59,
  0xc1afb6a85e53f001b316cfa69b6e6,
  0xc1afb6a85e53f0019b3b1e7bac0b2,
  0x18f4d45e634598000cd9d8f3dd6059,
  0x1777194bb44f64000d98b67d34db73,
  0xbbb8ca5da27b200195443230f0325,
  0x1f320975fc16fe00195443230f0325,
  0xf9904bafe0b7f00195443230f0325,
  0x1d54df9ea1633d0009bb3e6810f7a6,
  0x1d54df9ea1633d0004dd9f34087bd3,
  0x1fb21d056e63010004dd9f34087bd3,
  0x15f6de9d5d6b5b0018541c042a6b1f,
  0x17257d50c3eb3d0018541c042a6b1f,
  0x17257d50c3eb3d0017bcccaa772b2e,
  0x15f6de9d5d6b5b0018eb6b5dddab10,
  0x15f6de9d5d6b5b000c75b5aeeed588,
  0x1c31b974d4d61f00063adad7776ac4,
  0x15f6de9d5d6b5b001f2646355515d4,
  0x15f6de9d5d6b5b000f93231aaa8aea,
  0x1dc0702ab2b0d00007c9918d554575,
  0x16a9c9a2ae9ddd001e735b3003e352,
  0x15f6de9d5d6b5b001e735b3003e352,
  0x15f6de9d5d6b5b000f39ad9801f1a9,
  0x1298461aafae82000f39ad9801f1a9,
  0x10d8fa8d64b03d000f39ad9801f1a9,
  0x1f4301aab5429c000f39ad9801f1a9,
  0x1edb2e6d5c92f7000f39ad9801f1a9,
  0x1140cdcabd5fe2000f39ad9801f1a9,
  0x17da147d60a19a000f39ad9801f1a9,
  0x1b26b7d6b24276000f39ad9801f1a9,
  0x1ccd09835b12e4000f39ad9801f1a9,
  0xd935beb59213b0015d2f44aa53361,
  0xd935beb59213b001f468406584b89,
  0xd935beb59213b00166ceff8d8b662,
  0x124d23c932ad4f001f468406584b89,
  0x18c9d3e7c57c6c001f468406584b89,
  0xc64e9f3e2be36001f468406584b89,
  0x124d23c932ad4f00195e4a31085c70,
  0x1efc48e1b6db87000caf2518842e38,
  0x1efc48e1b6db87000657928c42171c,
  0x1efc48e1b6db8700032bc946210b8e,
  0x1bd07f9b95cff9000fdaee5ea539c6,
  0x1bd07f9b95cff90007ed772f529ce3,
  0x11defb6574366e0019cc7294c6d351,
  0xbf5913cf096330019cc7294c6d351,
  0x12e101e8dbb4c20019cc7294c6d351,
  0x97080f46dda610019cc7294c6d351,
  0x1ed69325cc4af500105bf1a058f8f0,
  0x1ed69325cc4af500082df8d02c7c78,
  0x1ed69325cc4af5000416fc68163e3c,
  0x1ed69325cc4af500020b7e340b1f1e,
  0x1ccb14f1c12bd7000a397704379b96,
  0x1ccb14f1c12bd700051cbb821bcdcb,
  0x1b2d5f3e26186700051cbb821bcdcb,
  0x6ba7135b6e13b00198fa98a8b04f7,
  0x10250d6020f31900198fa98a8b04f7,
  0x10250d6020f3190014da5b7555fc08,
  0x1ceee7f75d5d380004b54e153508ef,
  0x1c975e3b4dc9690004b54e153508ef,
  0x155ba43d76721b001a10f252ab7b0a,
  0x155ba43d76721b000d08792955bd85,
  0x8532b1420b496001fddb17e29e141,
  0x429958a105a4b001fddb17e29e141,
  0x429958a105a4b001e8064224e2ca7,
  0x14cfebb251c377001a56ce983dd25c,
  0x14cfebb251c377000d2b674c1ee92e,
  0x1b659f5861380e000695b3a60f7497,
  0x7a4846632da49001947fdd81a6caa,
  0x1448835240109e000ca3feec0d3655,
  0xa2441a920084f0016c840952d3ea4,
  0xa2441a920084f001faca39cd6aff0,
  0x1ff73cd7ad505e00013fdea1769703,
  0x18bab4d614c9440019fa93778b6047,
  0xc5d5a6b0a64a20019fa93778b6047,
  0x1fd5e4f415cee200013fdea1769703,
  0x1ee9620b99fb9500013fdea1769703,
  0x1ee9620b99fb95001014a05688494c,
  0x1c69a4c8accd8f0011547ef7fee04f,
  0x16df11e055d6ef0011547ef7fee04f,
  0x16df11e055d6ef001419c86c2a5b9f,
  0x157c6d26401947001419c86c2a5b9f,
  0x157c6d26401947000e8f3583d364ff,
  0x157c6d26401947001205d15509bf23,
  0x157c6d264019470013c11f3da4ec35,
  0x157c6d26401947000cd3e79b3837ed,
  0x157c6d264019470011282a60bc289a,
  0x157c6d26401947001e1082569e2d94,
  0xce857f5e204fa001dfc11fbf46087,
  0x6742bfaf1027d001dfc11fbf46087,
  0x6742bfaf1027d001f2076f154b67c,
  0x160467739b5dbb000f903b78aa5b3e,
  0x10b4a06e0ab133000f903b78aa5b3e,
  0x187cbe2a5fded20007c81dbc552d9f,
  0x1bce9a8dda4aa70007c81dbc552d9f,
  0x4764158dac1ca001dfc11fbf46087,
  0x23b20ac6d60e5001dfc11fbf46087,
  0x16ccfb59790365001491daad0ba280,
  0x1fb97e0b2e86f9001491daad0ba280,
  0x1fb97e0b2e86f9000a48ed5685d140,
  0x1fb97e0b2e86f900052476ab42e8a0,
  0x1fb97e0b2e86f90002923b55a17450,
  0x1e0fdf7e5feb3d0002923b55a17450,
  0x1f58fd2930a5650001491daad0ba28,
  0x1ffd8bfe9902790000a48ed5685d14,
  0x1f64253f7454bd0000a48ed5685d14,
  0x1fb66caa288347000052476ab42e8a,
  0x1fdf905f829a8c00002923b55a1745,
  0x1f3b018a1a3d780000cdb28ac27459,
  0x1faf739c3e35b00000cdb28ac27459]

def twoCerts64_2 : List Nat := [
  0x1fe9aca55031cc0000cdb28ac27459,
  0x1f39169f16bb810000cdb28ac27459,
  0x1c024c740cea1d0004047cb5cc45bd,
  0x1c10dab65169240004047cb5cc45bd,
  0x1e1a603259cb860004047cb5cc45bd,
  0x161166c6c1400c0014166f8cfd5cb1,
  0x1f1f22f05dfcb70014166f8cfd5cb1,
  0x199ac93eadacb40014166f8cfd5cb1,
  0x199ac93eadacb400179fd204e9c959,
  0xccd649f56d65a00179fd204e9c959,
  0x666b24fab6b2d001e068454953486,
  0x861a9896f4e8800179fd204e9c959,
  0x430d4c4b7a744001bd0a6c9a1709d,
  0x1de9112bfd443f,
  0x1ef5465d2b2e10001de9112bfd443f,
  0x10c35312de9d1001f29db26ae1ffa,
  0x10c35312de9d1001f4c0b7507c33c,
  0x1d44b939d8c13b,
  0x10c35312de9d1001f18c2ff814e59,
  0x10c35312de9d1001fc999fa084f54,
  0x10c35312de9d1001f9beadeb4dae9,
  0x53d09f5e59115001f9beadeb4dae9,
  0x17a9846032c71400126c7a6a4d35ff,
  0xbd4c23019638a001e413c9a669989,
  0x5ea61180cb1c5001e413c9a669989,
  0x1d93e5783f78d9000c82195240843a,
  0x1d93e5783f78d90006410ca920421d,
  0x1d93e5783f78d90011ea7910afdd7b,
  0x5685fbe6f5941001f453f4da14a91,
  0x1d278f02e7046b0017bf2f4477ab2a,
  0x1d278f02e7046b000bdf97a23bd595,
  0x1147f760ab2ed60018ce0769d4ce3d,
  0x8a3fbb055976b0018ce0769d4ce3d,
  0x8a3fbb055976b00195cfd3d6aca3f,
  0x11007c76e030d500195cfd3d6aca3f,
  0x11007c76e030d50018ce0769d4ce3d,
  0x11007c76e030d50014e741f05a7f89,
  0x11007c76e030d50012f3df339d582f,
  0xd19b6fd65e2210016daa4ad17a6e3,
  0x1f13e4d2a4a6a30011fa2dd53ec482,
  0x1f13e4d2a4a6a30008fd16ea9f6241,
  0x41ca012c67fe0001c7ef24a02ebc5,
  0x20e5009633ff0001e8d4253662bb5,
  0x1072804b19ff8001f946a5817cbad,
  0x83940258cffc001f946a5817cbad,
  0x83940258cffc001ff96d7977ee35,
  0x41ca012c67fe001ff96d7977ee35,
  0x20e5009633ff001ff96d7977ee35,
  0xa47902ef03fb001f75d9771f1e39,
  0xa47902ef03fb001f7881836f70a2,
  0x1fcc120b0f1bd4,
  0x3365d0eab13e7001e8320053113de,
  0x1f51614befed72001c1b043d44d98b,
  0xfa8b0a5f7f6b9001c1b043d44d98b,
  0xfa8b0a5f7f6b90015e1da719e6822,
  0x19183780497c09001c1b043d44d98b,
  0x1a999ddec72aca001c1b043d44d98b,
  0xd4cceef639565001c1b043d44d98b,
  0xd4cceef6395650014d3cec7d7ff2a,
  0xd4cceef6395650017b6b6534f94fa,
  0xd4cceef6395650019282a190b5fe2,
  0xd4cceef6395650013625b021c3442,
  0xd4cceef6395650016fdfc7071af86,
  0xd4cceef6395650018cbcd279c6d28,
  0xd4cceef6395650019b2b58331cbf9,
  0xd4cceef6395650016171414dc50b5,
  0xd4cceef639565001efec071838872,
  0xd4cceef639565001ccc2f2825599e,
  0x8e7ac5ca737bd001ccc2f2825599e,
  0x174dc3f0b9e48c000e66179412accf,
  0x1a0cf98c6f9f15000e66179412accf,
  0x148e8e55042a030011254d2fc86758,
  0x1d2134ece85daf000892a697e433ac,
  0x1d2134ece85daf000449534bf219d6,
  0x1f45de92e16a9a000224a9a5f90ceb,
  0x1f45de92e16a9a000ab7503ddd4097,
  0x1a5a3f874df5e4000ab7503ddd4097,
  0xd2d1fc3a6faf20017e47001843b89,
  0xfa2ef4970b54d0012f8d0f5f0c6d3,
  0xfa2ef4970b54d00114de01fb0be10,
  0x1849df594914550008a6f00fd85f08,
  0x1a450c102150510008a6f00fd85f08,
  0x1e9884180d7fd50004537807ec2f84,
  0x1e9884180d7fd5000229bc03f617c2,
  0x1fad621a088bb6000114de01fb0be1,
  0x1e9884180d7fd50005685609e73b65,
  0x1cd11924c8d4670005685609e73b65,
  0x1bed63ab267eb00005685609e73b65,
  0x64c0b8389911c001b09ae318428f9,
  0x32605c1c4c88e001e2fb3f348f187,
  0x1fc2b6d42b55ce001e2fb3f348f187,
  0x19302e0e26447001f49a8fd36f28f,
  0x19302e0e26447001e996fd70231ea,
  0x19302e0e26447001f0ad4b45903bb,
  0x1507f46d44e0d6001374f18c627c8f,
  0x182dfa2f09a96400104eebca9db401,
  0xc16fd1784d4b2001c65e8e22288b3,
  0x60b7e8bc26a59001c65e8e22288b3,
  0x1e3978bacc13bd000a436d3edb49a8,
  0x1e3978bacc13bd000521b69f6da4d4,
  0x1e3978bacc13bd000290db4fb6d26a,
  0x1ba89d6b154153000cd4488e921c12,
  0x1ba89d6b15415300066a2447490e09,
  0x110960d92f27ae00177385207835b7,
  0x110960d92f27ae000f09548b3e1e7f,
  0x884b06c9793d700178e04f7d5b256,
  0x884b06c9793d7001cd063551a00d9,
  0x884b06c9793d7001b2f3a4d705e2f,
  0xf6837d1858504001b2f3a4d705e2f,
  0x7b41be8c2c282001b2f3a4d705e2f,
  0x1f094841d1bf70001b2f3a4d705e2f,
  0x134245c5e6e64500137b1e64ad9bad,
  0x135eb2154a40f900137b1e64ad9bad,
  0x135eb2154a40f900136ce83cfbee53,
  0x135eb2154a40f90013a5c0dbc2a3bb,
  0x135eb2154a40f9001382397886725a,
  0x1d1fced18d7a26,
  0x135eb2154a40f9000e8fe768c6bd13,
  0x1cfc476e5148c50004f2520fbfb547,
  0x10f74cbf087f060015e99ecec8344d,
  0x87ba65f843f83001e65452e4c73d0,
  0x1cfc476e5148c5000d6df86f43f4ca,
  0x1cfc476e5148c50006b6fc37a1fa65,
  0x11d9a1d2f9a1950018909e0a9b9bfa,
  0x11d9a1d2f9a195000fb94b43304264,
  0x11d9a1d2f9a1950019b6477491c2c7,
  0x11d9a1d2f9a1950015c7f4a3c5b22e,
  0x1cbd9c24dc7aac000ae3fa51e2d917,
  0x17e84b338f115f000ae3fa51e2d917,
  0x1c4a1d149bce52000ae3fa51e2d917,
  0x190908dc30c040000ae3fa51e2d917,
  0xe250e8a4de729001a29c684d26f21,
  0xe250e8a4de7290014276a87902b25,
  0x1f4b4b133cf0500011263c88ef0927,
  0x1948ef15faac540014276a87902b25,
  0xca4778afd562a0014276a87902b25,
  0x6523bc57eab15001a79a64d0ed63a,
  0x138f0eec061632000d3cd326876b1d,
  0x1f9b2adb7957690006ea976108c008,
  0x1f9b2adb7957690003754bb0846004,
  0x1f9b2adb7957690001baa5d8423002,
  0x1c25df2af4f7650008a53d394af00a,
  0x1c25df2af4f7650004529e9ca57805,
  0x1d341ab9bd9fc40004529e9ca57805,
  0x148edd8072afba00159d190f3b5819,
  0xa476ec03957dd001fe487cf74aff6,
  0xa476ec03957dd001a39b2a7f3afd8,
  0x17644814332fc9000d1cd953f9d7ec,
  0x11b972ecb22fab000ff243e7ba57fb,
  0x10d5db6a3643d3000ff243e7ba57fb,
  0x10d5db6a3643d30010640fa8f84de7,
  0x10d5db6a3643d3001f72bc0e36ba0a,
  0x10d5db6a3643d3000fb95e071b5d05,
  0x10d5db6a3643d30010479cb8a8d06c,
  0x11f258cd512aa1000f2b1f558de99e,
  0x1987e878181f700007958faac6f4cf,
  0xcc3f43c0c0fb800145983e6d30487,
  0x661fa1e0607dc001abb7e04d90c63,
  0x1fe9e2961e274c000df789c8ccfcab,
  0x1dec7b13dc1051,
  0x7fa78a58789d3001dec7b13dc1051,
  0x1fd67824216fb001feebd329d5533,
  0x12f379dcb1cd120010f6125a6fb617,
  0x979bcee58e689001a6fcf48c89ca0,
  0x14f0e15ef3e40d001a6fcf48c89ca0,
  0x14f0e15ef3e40d000d37e7a4644e50,
  0x1b8cd531260b3500069bf3d2322728,
  0x1edacf1a3f1ec900034df9e9191394,
  0x1cb2f2e982b1f500034df9e9191394,
  0x1e59efde0f3bbf0001a6fcf48c89ca,
  0x1f2d6e585580a40000d37e7a4644e5,
  0x1d867163c8f6da00042178635f5879,
  0x1f491a3f61dd5100042178635f5879,
  0x1e19b27b7ea45000042178635f5879,
  0x15d6c1b4bff35e0014a759f0dcba5d,
  0x1f92bacb3cb40c0014a759f0dcba5d,
  0xfc95d659e5a060014a759f0dcba5d,
  0x7e4aeb2cf2d03001c8c08a3abe760,
  0x7e4aeb2cf2d03001855eeb837e1b3,
  0x7e4aeb2cf2d03001fe6ac1b21e161,
  0x13e5ad66f88732,
  0x1b766ac9e286e0000c00feb4295a2f,
  0xdbb3564f143700019bc34191a9d9f,
  0x6dd9ab278a1b80019bc34191a9d9f,
  0x6dd9ab278a1b80019b0f408739a53,
  0x36ecd593c50dc001d1fc161afeb2f,
  0x1b766ac9e286e001ed7280e4e139d,
  0xdbb3564f1437001fb2db649d27d4,
  0x44a80af8b6513001c440e0b60d6f8,
  0x44a80af8b6513001f4c09c3ddffc8,
  0x44a80af8b6513001c8586f0912f1d,
  0x1574836db8f95f001c8586f0912f1d,
  0x18fd052f25143e001c8586f0912f1d,
  0xc7e8297928a1f001c8586f0912f1d,
  0x56d7f14ba5461001c8586f0912f1d,
  0x10f98302a5c1bf001c8586f0912f1d,
  0x10f98302a5c1bf0016bf84f99b786e,
  0x1c2d040e55cccf001c8586f0912f1d,
  0x1c59457f737df6001c8586f0912f1d,
  0xe2ca2bfb9befb001c8586f0912f1d,
  0xe2ca2bfb9befb00155914d825770c,
  0x1bd4812c1a6a8100072c72186bb811,
  0x1fd95dd31a816b00072c72186bb811,
  0x1382e7f5c31cbe001aaf5a0e2ed4cf,
  0x52a03c4ebac9c001eb436b52eebb9,
  0x29501e275d64e001eb436b52eebb9,
  0x14a80f13aeb27001ffeb7a669d6e0,
  0x67484b62697c3001eb436b52eebb9,
  0x1908e26bd159810012945db5aac1be,
  0x1908e26bd1598100094a2edad560df,
  0x1908e26bd1598100112988a3535d30,
  0x7df59c87dfc51001eb436b52eebb9,
  0x7df59c87dfc51001b292207547056,
  0x1d534494a630cd001573eacc28347c,
  0x7df59c87dfc51001c8a1427dd2b42,
  0x7df59c87dfc51001e03bda4ea8e43,
  0x7df59c87dfc51001ad0e57f32419b,
  0x7df59c87dfc51001fbcec4d9577ea,
  0x1f9d29b7c6b497,
  0x7df59c87dfc51001b9d9b88a054c5,
  0x199dd4710d24dc0011be7aa88f288b,
  0x7df59c87dfc510019bd9706dbe82f,
  0x7df59c87dfc510018add2302aee91,
  0x7df59c87dfc51001825efc4d271c2,
  0x1ef584b69f74750008673c33d67920,
  0x1ef584b69f74750004339e19eb3c90,
  0x1ef584b69f7475000219cf0cf59e48,
  0x1ac1e69cb437e5000a810b40cc1768,
  0x1ac1e69cb437e500054085a0660bb4,
  0x1d62296ce73dbf0002a042d03305da,
  0x1eb24ad500c0ac00015021681982ed,
  0x1ac1e69cb437e5000690a7087f8ea1,
  0x1dca94e3990085,
  0xb9cf6ed8cb8f2001dca94e3990085,
  0x50c4fe50d2a51001bc6f345709ed4,
  0x1d086951dfce5d0017fc196cd2a40c,
  0x1d086951dfce5d000bfe0cb6695206,
  0x1616ac8083a6a80012efc987c579bb,
  0xb0b564041d354001dfb1fc8074d0f,
  0x585ab2020e9aa001dfb1fc8074d0f]

def twoCerts64_3 : List Nat := [
  0x2c2d5901074d5001dfb1fc8074d0f,
  0xdce2bd05248290012efc987c579bb,
  0x105efaac0be0f20012efc987c579bb,
  0x82f7d5605f079001b1f46ddcb6a34,
  0x1e2d267c5e291b000ac04c31bf8942,
  0x1e2d267c5e291b0005602618dfc4a1,
  0x11c6a64a9ef6de001726cc637ebb7f,
  0x1dbf9c637d5f6b0005602618dfc4a1,
  0x1c502d6fee1b480005602618dfc4a1,
  0x18e862e9b696e6001e488902965b87,
  0xc743174db4b73001e488902965b87,
  0x7140b5bfb86d2001ae0be7c5ed725,
  0x38a05adfdc369001e6ac42a5c9a8e,
  0x1d5d78cd255aeb,
  0x38a05adfdc369001e08a09404960e,
  0x1d2c6701f958ab,
  0x38a05adfdc369001e834d0ff29bae,
  0x11b21c65f4d10d0013e53c05f95173,
  0x12cbac35f711400013e53c05f95173,
  0x965d61afb88a0001d4b1220f4da13,
  0x4b2eb0d7dc450001d4b1220f4da13,
  0x177e974374d59000189827137715c3,
  0xbbf4ba1ba6ac800189827137715c3,
  0x5dfa5d0dd3564001e77cce4544b27,
  0x1d5e3d14520af4001e77cce4544b27,
  0xeaf1e8a29057a001e77cce4544b27,
  0x7578f451482bd001e77cce4544b27,
  0x1c44ad444fcac10008711f1516c2f0,
  0x1c44ad444fcac10004388f8a8b6178,
  0x1e60f509957b7d00021c47c545b0bc,
  0x1f6f18ec3853db00010e23e2a2d85e,
  0x1b368961acf263000546b36d2e39d6,
  0x1dd9e318440f4e0002a359b6971ceb,
  0x11904b42b92492001433a4f950417d,
  0x1b368961acf263001433a4f950417d,
  0x17b5172d7e99f0001433a4f950417d,
  0xbda8b96bf4cf8001433a4f950417d,
  0x12dd6fff1bfdde001433a4f950417d,
  0x1da25cf8de406c001433a4f950417d,
  0xed12e7c6f2036001433a4f950417d,
  0x768973e37901b001b9c3c3787d198,
  0x20620c1566ed4001ef891f312840b,
  0x1031060ab376a001ffba253bdbb75,
  0x818830559bb5001ffba253bdbb75,
  0x287a8f1ac0a89001ef891f312840b,
  0x1347c6640b51d30010c01d725f474a,
  0x1ba7d51d3af5780008600eb92fa3a5,
  0x1347c6640b51d30016988339e2e066,
  0x1e940800fcc206000b4c419cf17033,
  0xf4a04007e6103001a96459d6fd136,
  0xf4a04007e6103001c9526cf36499e,
  0x1347c6640b51d3001c9526cf36499e,
  0x1347c6640b51d3000e4a93679b24cf,
  0x1f13c04d6e6020000e4a93679b24cf,
  0x1ac392deb39559000e4a93679b24cf,
  0x14871323275d14000e4a93679b24cf,
  0x188e1cf92ed359000e4a93679b24cf,
  0x1f2e7ea9bd195900040709d6077645,
  0x1dafe1c1f8aa9e00040709d6077645,
  0xed7f0e0fc554f0012defab703cb94,
  0x6c9dd34ed68c5001aed0e6312b81e,
  0x1440646676c4d4000d768731895c0f,
  0xa2032333b626a001796b964c4be79,
  0x51019199db135001ca6d27e626fae,
  0x51019199db135001fdff4445ef3d8,
  0x51019199db135001f20456f088d8b,
  0x51019199db135001c3861778e81ca,
  0x19507d801476090007f7fd1117bcf6,
  0x1d4c7c08a054840003fbfe888bde7b,
  0xea63e04502a420012a23c8cdc08bd,
  0xaaa3f7bc44bc7001e9638267fa42e,
  0xaaa3f7bc44bc70019f55b8f041dde,
  0x17a4ed43465ab6000cfaadc7820eef,
  0x18cd2469253c4a000cfaadc7820eef,
  0xaaa3f7bc44bc7001b1d92b4e2ff72,
  0x183908d635cb80000d8ec95a717fb9,
  0xc1c846b1ae5c00019ab4dc58c6579,
  0xc1c846b1ae5c0001f746182e6cd5d,
  0x60e42358d72e0001f746182e6cd5d,
  0x307211ac6b970001f746182e6cd5d,
  0xf23a585e19f30001f746182e6cd5d,
  0x791d2c2f0cf98001f746182e6cd5d,
  0x3c8e9617867cc001f746182e6cd5d,
  0x1e474b0bc33e6001f746182e6cd5d,
  0x9764773ad037e001f746182e6cd5d,
  0x4bb23b9d681bf001f746182e6cd5d,
  0x4bb23b9d681bf001b8e0a120bab0c,
  0x17a7b2a13088bb001b8e0a120bab0c,
  0x17a7b2a13088bb000dc7050905d586,
  0x17a7b2a13088bb001e8b3525b3737e,
  0x1aa4ddb4d8512d001e8b3525b3737e,
  0x1aa4ddb4d8512d000f459a92d9b9bf,
  0x14f53c23d90576000f459a92d9b9bf,
  0x19c038a4c63c7a000f459a92d9b9bf,
  0x5afa190ff4bb7001da69015a15ecb,
  0x175aba644fa0f80011ab18d3505541,
  0x1d5876057825bd0011ab18d3505541,
  0xbad5d3227d07c001df4aa25ca97d9,
  0x5d6ae9913e83e001df4aa25ca97d9,
  0x2eb574c89f41f001df4aa25ca97d9,
  0xe98b47eb1c49b001532a4402cbb7c,
  0xe98b47eb1c49b001932069ec82259,
  0xe98b47eb1c49b0013e55d8ebcf37a,
  0x188b6346103e580009f2aec75e79bd,
  0x173e1c94a076560009f2aec75e79bd,
  0x1f846bd90d2ea50009f2aec75e79bd,
  0x1eae3c17944dee0009f2aec75e79bd,
  0xd62fc178e0b7001f554f447510f7,
  0x1a1ffc94a1816b001949ccd328a0b4,
  0x1a1ffc94a1816b000ca4e66994505a,
  0xe5145ec8611c80018739d11afbffd,
  0x728a2f64308e4001f9c4007f2c8e1,
  0x394517b218472001f9c4007f2c8e1,
  0x1ca28bd90c239001f9c4007f2c8e1,
  0x8f2cbb3d3cb1d0018739d11afbffd,
  0x10b33462c1c58d0018739d11afbffd,
  0x10b33462c1c58d00149368ba38c2c5,
  0x10b33462c1c58d00136105b552f218,
  0x10b33462c1c58d001a63b73d6b3e99,
  0x10b33462c1c58d00158b75d0168213,
  0x1c8e27582ece94001a63b73d6b3e99,
  0xe4713ac17674a001a63b73d6b3e99,
  0x72389d60bb3a5001a63b73d6b3e99,
  0x1f0ab435d2e069,
  0x12ee10a47f091a0010c3a089bb791f,
  0x1a3aa8dbfafdac0010c3a089bb791f,
  0xd1d546dfd7ed6001de0f4f7b8f7f5,
  0x1d13ad1087b3540003a64c1bbdfa49,
  0x1d2306f73bc2ce0003a64c1bbdfa49,
  0xe91837b9de167001237cf975bdbb0,
  0xaeb375fdfe71e001d2ab3ea95ca8b,
  0x5759bafeff38f001d2ab3ea95ca8b,
  0x1c3b5f2d22c62b0016c5c37d32d29c,
  0x1c3b5f2d22c62b000b62e1be99694e,
  0x164e191e79506c00115027cd42df0d,
  0xb270c8f3ca836001c77345c7f8743,
  0x59386479e541b001c77345c7f8743,
  0x1be19f6617a4870016e3ae14e13328,
  0x1be19f6617a487000b71d70a709994,
  0x1be19f6617a4870005b8eb85384cca,
  0xab6dcd66ebe29001c9c999a197ff2,
  0x190529a37b7e22000e4e4ccd0cbff9,
  0x1ad0e19eca7f0a000e4e4ccd0cbff9,
  0xd6870cf653f85001bb6bd9c71ff7e,
  0xc8294d1bdbf11001d827597c10066,
  0x1b43cf9d9e3f44000ec13acbe08033,
  0xda1e7cecf1fa2001c63229aaf9fd5,
  0xc8294d1bdbf11001ea1c894d260f7,
  0xc8294d1bdbf110015922eb3481004,
  0x174bac2b61c713000ac91759a40802,
  0xc8294d1bdbf11001ce84b1cb8a9e8,
  0xc8294d1bdbf11001af6ba601a1405,
  0x13bca798ebe98b001af6ba601a1405,
  0x1a6a8a34cde6f300073a12c72e2a7a,
  0x1e07939864fc3000039d096397153d,
  0x1d77ef5a8ed30c00039d096397153d,
  0x15f60a7475940000199313d80ca93d,
  0x12590110de7ec30012112ef1f36a31,
  0x12590110de7ec3001235180168f47a,
  0x1b738d1192f90000091a8c00b47a3d,
  0x1c03314f69222400091a8c00b47a3d,
  0x171c24a8690b4f00091a8c00b47a3d,
  0x1935e455433d0300091a8c00b47a3d,
  0x1ed07e498f0745000219bfacda31b4,
  0x1fdd5e1ffc201f00010cdfd66d18da,
  0x1fdd5e1ffc201f0000866feb368c6d,
  0x15724635bad2880015f8b620f15ef5,
  0x13588688e0a0d40015f8b620f15ef5,
  0x1fa4f96561af5f0015f8b620f15ef5,
  0x1aced7c329872a0015f8b620f15ef5,
  0x4d621a2382835001ba352defc2f44,
  0x4d621a2382835001c540e56269041,
  0x1f177ce2d7d4da001a415b409faca5,
  0x1a415b409faca5,
  0x193801b5dc3ad7001a415b409faca5,
  0x19bcae7b3df3be001a415b409faca5,
  0xcde573d9ef9df001a415b409faca5,
  0x193801b5dc3ad7000de7b0c8626bad,
  0x193801b5dc3ad700138fd93f1f5342,
  0x193801b5dc3ad70009c7ec9f8fa9a1,
  0x1c48ca51b085e90009c7ec9f8fa9a1,
  0x1cd048182fc1660009c7ec9f8fa9a1,
  0x183010aba78a540009c7ec9f8fa9a1,
  0x183010aba78a540018b78e7226c5d1,
  0xc180855d3c52a0018b78e7226c5d1,
  0x60c042ae9e295001ec3929d10a866,
  0x1b79d1a45c195d00156dcd797236c8,
  0x60c042ae9e295001c88cd315a9057,
  0x60c042ae9e295001d627103f5fea0,
  0x60c042ae9e295001ac940d7cec47a,
  0x1f21fd5d81ca7d,
  0x60c042ae9e295001eaf091a099bb3,
  0x60c042ae9e295001e758ef84d844e,
  0x60c042ae9e295001f5b777f3de1e2,
  0x60c042ae9e295001bc5c41572b61b,
  0x1d00ec76021182,
  0x1a987e90d4cdeb00148c7a65eaeb56,
  0x1e3c14d6916ce900148c7a65eaeb56,
  0x1e3c14d6916ce9000a463d32f575ab,
  0x1e876637b8e6f5000a463d32f575ab,
  0x9faebd1cdfb9f001f695a5b2f5519,
  0x1ead0ee84ca3fb0014b223167ea85c,
  0x1ead0ee84ca3fb000a59118b3f542e,
  0x9faebd1cdfb9f001fc78014a0ada8,
  0x9faebd1cdfb9f0019deabdc1e5273,
  0x1be7b7a8c422a80011eccbd6f62709,
  0x1fe0a7ab58385d0011eccbd6f62709,
  0xffce7a107e1890011eccbd6f62709,
  0x10f4d9bbff04490011eccbd6f62709,
  0x1170d2c97a95a90011eccbd6f62709,
  0x10f4d9bbff0449001360b6ff68db29,
  0x10f4d9bbff044900122ac85db3efb9,
  0x118fd10cd97a0100122ac85db3efb9,
  0xf23f3c96fa32100122ac85db3efb9,
  0x10a75e1391c96d00122ac85db3efb9,
  0x11691338a2dc9300122ac85db3efb9,
  0x11c9edcb2b662600122ac85db3efb9,
  0x10a75e1391c96d00128ba2f03c794c,
  0x19ed2f8bb00613000945d1781e3ca6,
  0x1e901847bf24660004a2e8bc0f1e53,
  0x19ed2f8bb0061300172e8bac4b979f,
  0x188ddd9bfdced900172e8bac4b979f,
  0x188ddd9bfdced90017de34a424b33c,
  0x19ed2f8bb0061300167ee2b4727c02,
  0x19ed2f8bb00613000b3f715a393e01,
  0x12965072f4a20a001dd5c1cd2de00b,
  0x94b28397a5105001dd5c1cd2de00b,
  0x148a9993b38f06,
  0x19ed2f8bb00613000a454cc9d9c783,
  0x1c5e8af49eae4e000a454cc9d9c783,
  0x1c5e8af49eae4e0016fbf4fca23741,
  0xe2f457a4f57270016fbf4fca23741,
  0xe2f457a4f57270012959d3b78c734,
  0x1f53459917c34e00046657c129700d,
  0x1cdcaa100831ce00046657c129700d,
  0xe6e55080418e70012d4acc92d88f4,
  0x17d8ab6c9add6100096a566496c47a,
  0x1d7a50f24c162e00046657c129700d,
  0x1323803a4f7b24001789d7fb78eb31,
  0x991c01d27bd92001789d7fb78eb31]

def twoCerts64_4 : List Nat := [
  0xebd2879260b1700125e6f9f7a9dac,
  0x17ec6048e359ed00092f37cfbd4ed6,
  0x1c83fc30c201580004979be7dea76b]

end Grisu.CacheLength
