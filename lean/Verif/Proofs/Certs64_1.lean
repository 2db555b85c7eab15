import Verif.Proofs.ExpTable

/-! # Certificates for the binary64 exponents -573 to -62

Generated: entry `i * 2^128 + b * 2^64 + d` holds the denominators of the Stern-Brocot neighbours for
the exponent `min_exponent + i`. -/

namespace Grisu

def certs64_1 : List Nat := [
  0x200007cd852818a82c8002c8096be2c4759,
  0x201006aecbffef188bd002c8096be2c4759,
  0x202007837421cbb2f64002c8096be2c4759,
  0x203006f8dd063c0dc21002c8096be2c4759,
  0x204007a87ca4f22d916002c8096be2c4759,
  0x2050069c47be5bdb3e4002c8096be2c4759,
  0x2060069c47be5bdb3e400de82f1b6dd64bd,
  0x2070034e23df2ded9f200a9a0b3c3fe8acb,
  0x208001a711ef96f6cf9008f2f94ca8f1dd2,
  0x2090044596300ec49f6003fdc37de40d6e7,
  0x20a00222cb1807624fb006208e95eb6fbe2,
  0x20b005331262fd1a2ec00310474af5b7df1,
  0x20c005a9d07c7444f6700310474af5b7df1,
  0x20d006df1f618d51b6c00310474af5b7df1,
  0x20e0067fd6fbbc60ba700310474af5b7df1,
  0x20f007d8566e4ec42bd00310474af5b7df1,
  0x210005869feefaee45600310474af5b7df1,
  0x211005d39742732f01c00310474af5b7df1,
  0x212005fa12ec2f4f5ff00310474af5b7df1,
  0x2130056024453ecde7300310474af5b7df1,
  0x214007487d130ffac2300310474af5b7df1,
  0x2150052c622f02d950a00310474af5b7df1,
  0x216005a67862772487600310474af5b7df1,
  0x217004b24bfb8e8e19e0038a5d7e6a0315d,
  0x2180025925fdc7470cf005e3837c314a22c,
  0x2190054ae7bbdfec1e5002f1c1be18a5116,
  0x21a0025925fdc7470cf00a067cbaecab3d0,
  0x21b0025925fdc7470cf0075c645b3d9cab7,
  0x21c004dac52c8271dc30075c645b3d9cab7,
  0x21d004dac52c8271dc300c881be9a7d60c4,
  0x21e004dac52c8271dc300b1ed321565ce25,
  0x21f004dac52c8271dc300cd791536ed93b7,
  0x220004dac52c8271dc3003fe66137633afa,
  0x221000dc5f190c3e2c9008c72a1bafda2ad,
  0x222000dc5f190c3e2c90084340fe8f04ddf,
  0x223006488e3de61dde60056c2f24d9dfb1d,
  0x224006488e3de61dde6001fab2c0a8e6ff9,
  0x22500324471ef30eef30084340fe8f04ddf,
  0x22600324471ef30eef3008d80b2db418d5c,
  0x22700324471ef30eef3009a9299012d7e5b,
  0x22800324471ef30eef30098aff76760259a,
  0x22900324471ef30eef300b0e0df9211f0b3,
  0x22a00324471ef30eef3007192a8c0a16fd3,
  0x22b00577f1efc224bf9004c57fbb3b012cd,
  0x22c0051eb8d57e92f63004c57fbb3b012cd,
  0x22d0051eb8d57e92f63004f21c485cca118,
  0x22e005a48e7ce3eda44004c57fbb3b012cd,
  0x22f002d2473e71f6d2200797c6f9acf7fef,
  0x23000169239f38fb69100797c6f9acf7fef,
  0x23100169239f38fb69100856f6d0b4385c6,
  0x23200169239f38fb69100866e646050e696,
  0x23300169239f38fb6910086ede00ad796fe,
  0x234005a0929f8fb8210004376f0056bcb7f,
  0x23500169239f38fb69100862ea68b0d8e62,
  0x23600169239f38fb6910086ce012035eae4,
  0x23700708b74773a62940059f93a83aaac03,
  0x2380070db21c1ce90d500436700901af572,
  0x2390070db21c1ce90d50021b380480d7ab9,
  0x23a006afad14cfb80800021b380480d7ab9,
  0x23b0049475104ee05c700a881816843659d,
  0x23c0049475104ee05c70078e4693698b5b2,
  0x23d0049475104ee05c7003c72349b4c5ad9,
  0x23e007f4ef76b698b29003c72349b4c5ad9,
  0x23f00561c6d6e8fb0b5003607a6667b8562,
  0x24000712040a1cd7366001b03d3333dc2b1,
  0x241006e97c6b7623f15001b03d3333dc2b1,
  0x2420038902050e6b9b3008713200034cd75,
  0x2430038902050e6b9b3005fd1a0288dc394,
  0x244006878f0652d9b7d002fe8d01446e1ca,
  0x2450008a7503c9fd7e90087b44d8de44a06,
  0x2460008a7503c9fd7e90077c60832b13479,
  0x247004036ac37a8863100b7fcb46a59baaa,
  0x248004036ac37a88631005bfe5a352cdd55,
  0x249004036ac37a88631008ae665f395b3b4,
  0x24a004036ac37a886310085a9df3173600b,
  0x24b004036ac37a8863100a326f1ec36794f,
  0x24c004036ac37a8863100ad9fff707b20a1,
  0x24d004036ac37a8863100b722020bba599a,
  0x24e004036ac37a88631009bc7ad3d85b2fe,
  0x24f004036ac37a886310088c3a80707410c,
  0x250004036ac37a88631008498803b2c26b7,
  0x251004036ac37a8863100a29e427112dca5,
  0x252004036ac37a8863100aaf49208c9114f,
  0x253004036ac37a8863100b5cc4b57e151f1,
  0x254004036ac37a8863100bb3827ff6d7242,
  0x255004036ac37a88631009dd2c0375f3f52,
  0x256004036ac37a886310092fb06e846feb0,
  0x257004036ac37a886310089b42fabcc0589,
  0x258004036ac37a8863100a52c1a2962cc0e,
  0x259004036ac37a8863100b7b9c8a258be5c,
  0x25a004036ac37a88631009c139088d4e55f,
  0x25b004036ac37a8863100ae5bca97e73bf9,
  0x25c0012483a0f12569a008a3f187f933cf1,
  0x25d0009241d07892b4d00811afb780a11a4,
  0x25e0009241d07892b4d00808a48f0c537ed,
  0x25f004dfb5003b05cea0044d732fc27319d,
  0x2600009241d07892b4d0085f5633f711426,
  0x2610009241d07892b4d0082f77cd478b92e,
  0x26200660c32886109cb005ce81580d7de7e,
  0x263002db49125add881005ce81580d7de7e,
  0x264005c289be619c7c0002e740ac06bef3f,
  0x265005c8858b378d31f002e740ac06bef3f,
  0x266005c8858b378d31f002f33845b2a05fd,
  0x267005c8858b378d31f0045ddee87516c8e,
  0x268007f774ff72189660022eef743a8b647,
  0x2690062aa9f3f397afa0022eef743a8b647,
  0x26a007d989ff446508b000622468bc0a7db,
  0x26b004e22005784cbe900544446e34573c4,
  0x26c00784423c92785cb002a222371a2b9e2,
  0x26d00784423c92785cb005a668d6f061b9f,
  0x26e00784423c92785cb006955589c16d0b5,
  0x26f0070ccbe329f2b40006955589c16d0b5,
  0x27000784423c92785cb0052ef27d87dc114,
  0x27100784423c92785cb00297793ec3ee08a,
  0x27200784423c92785cb0014bbc9f61f7045,
  0x27300467ff6dfa37b0800a1bbb7b5666655,
  0x274004ecc8fdce8a541005b3bc0d5c2eb4d,
  0x275005504285955c847005b3bc0d5c2eb4d,
  0x27600581ff4978c59ca00b35bb56d4f4517,
  0x277004bb0c39eb213be005b3bc0d5c2eb4d,
  0x2780025d861cf5909df005b3bc0d5c2eb4d,
  0x27900408a11528dfa96009bc5d22850e5e3,
  0x27a000b26b24c2419280085786d9008b393,
  0x27b0005935926120c940085786d9008b393,
  0x27c0002c9ac9309064a0082aec0fcffad49,
  0x27d000164d649848325008149eab37b2a24,
  0x27e0006f82f6f968fb9008413974684306e,
  0x27f004ffa2a826f37a9004901fb12d8a7f0,
  0x280004ffa2a826f37a900747b280bdb8ba1,
  0x281004ffa2a826f37a900b684f3af1da3d8,
  0x282004ffa2a826f37a900ab3ca459fe0995,
  0x283004ffa2a826f37a9007d9b676e36a09f,
  0x284004ffa2a826f37a9004431db96069d7c,
  0x285004ffa2a826f37a900c20d42cfe1be10,
  0x286004ffa2a826f37a900b100cbea6016b1,
  0x287004ffa2a826f37a900308350b3f86f84,
  0x288006f710450e5ffce00418fc7997a16e3,
  0x2890037b8822872ffe700b100cbea6016b1,
  0x28a00745ca709698b4c003ca424e0f68b65,
  0x28b0037b8822872ffe700880b31eb77b944,
  0x28c0037b8822872ffe700b3769d46a1dc70,
  0x28d0037b8822872ffe70059bb4ea350ee38,
  0x28e006c8c8c63e957ee002202cc7addee51,
  0x28f007a4bdf27b08899002202cc7addee51,
  0x290004e2755d1473b7500702a224c2529c6,
  0x291004e2755d1473b7500381511261294e3,
  0x2920064399a7c7be207005a17dda0f08334,
  0x2930064399a7c7be207002d0beed078419a,
  0x294007abf91e4b802d4001685f7683c20cd,
  0x29500763a96826d3c86001685f7683c20cd,
  0x296007eaf3179eb00aa001685f7683c20cd,
  0x297006c63878d6dc1ef001685f7683c20cd,
  0x298003f5798bcf5805500709dd5092ca401,
  0x2990057fab6e311122b00c8988bec3db62c,
  0x29a0057fab6e311122b00bc46fcd92fed41,
  0x29b0057fab6e311122b00322622fb0f6d8b,
  0x29c007dcf4acb12b6cb003e77b20e1d3676,
  0x29d007dcf4acb12b6cb001f3bd9070e9b3b,
  0x29e004e8591e910a90300bc46fcd92fed41,
  0x29f007dcf4acb12b6cb000f2df92c1b28ae,
  0x2a0007dcf4acb12b6cb000796fc960d9457,
  0x2a10042b323b0902591008cfd43f72ddf79,
  0x2a2007dcf4acb12b6cb0051e11cdcab4e3f,
  0x2a3007dcf4acb12b6cb0067d833d3df0285,
  0x2a40072d3bf4f78dca80067d833d3df0285,
  0x2a5003969dfa7bc6e5400a142137b9b70d9,
  0x2a6007dcf4acb12b6cb002372c8b088ba0e,
  0x2a7007dcf4acb12b6cb0011b96458445d07,
  0x2a80047c45791ab89e900a142137b9b70d9,
  0x2a9006eb239049c9b2b0011b96458445d07,
  0x2aa007561fbb73d932e0011b96458445d07,
  0x2ab005e23c68c2783a500ce00f170936451,
  0x2ac00743709d76e4dad0011b96458445d07,
  0x2ad0078246420a66c6f0011b96458445d07,
  0x2ae006861acecfe1ec9007a1b1145427bd0,
  0x2af006861acecfe1ec9003d0d88a2a13de8,
  0x2b0006861acecfe1ec9006080515329f7f6,
  0x2b1006861acecfe1ec900304028a994fbfb,
  0x2b2006861acecfe1ec9004c50eacb498d62,
  0x2b3006861acecfe1ec900446f8f3175668f,
  0x2b4006861acecfe1ec90056689e0f39c2ac,
  0x2b5006861acecfe1ec9002b344f079ce156,
  0x2b60059dd4a54d5cc91002b344f079ce156,
  0x2b7006f7771d8a43d3c00159a2783ce70ab,
  0x2b800788a2f77bd709f00159a2783ce70ab,
  0x2b9007f738802f5846900159a2783ce70ab,
  0x2ba0075bb26cafedbe000159a2783ce70ab,
  0x2bb007bac09f0eabff100159a2783ce70ab,
  0x2bc0073d767c1f979a400159a2783ce70ab,
  0x2bd005e3d403e2b08f9006c02c593083357,
  0x2be00652002e8999e2800d122c87ba1d17f,
  0x2bf00329001744ccf14009e92c70755026b,
  0x2c0005e3d403e2b08f900405586c929f972,
  0x2c1007e6803a2c005b200202ac36494fcb9,
  0x2c2003f3401d16002d9009e92c70755026b,
  0x2c3005e3d403e2b08f900ddc6c8d8b50544,
  0x2c4005e3d403e2b08f9006ee3646c5a82a2,
  0x2c5005e3d403e2b08f9003771b2362d4151,
  0x2c6004ad7793a2c2525003771b2362d4151,
  0x2c7004ad7793a2c252500ca6101d4b62170,
  0x2c8004ad7793a2c252500b007fa248735dd,
  0x2c9007d6fb9af59ad8100329840752d885c,
  0x2ca00793c1bd8f90fed001a5907b02eeb93,
  0x2cb0064239974c2e95300e2a03a99b4be39,
  0x2cc0064239974c2e953003f3e509278ea73,
  0x2cd0024e548e249fee00083bd2670ea99df,
  0x2ce001272a47124ff700083bd2670ea99df,
  0x2cf0009395238927fb80083bd2670ea99df,
  0x2d000049ca91c493fdc0083bd2670ea99df,
  0x2d100170f4d8d6e3f4c00919321c5c65973,
  0x2d2000b87a6c6b71fa600860b7aff0f39cd,
  0x2d30005c3d3635b8fd3008047a79bb3a9fa,
  0x2d4001cd320f0c9cf1f00919321c5c65973,
  0x2d5001cd320f0c9cf1f0090d9633cdbb287,
  0x2d60073a963079c8ff20056d64216d2c0d3,
  0x2d70072efa47eb1e906001d3000353f2295,
  0x2d80056a7d2749817180073d7d2a9d739ad,
  0x2d9002b53e93a4c0b8c009f2bbbe4234539,
  0x2da0015a9f49d2605c6008981c746fd3f73,
  0x2db006c51c711be1cde005e2dde0cb133e7,
  0x2dc003628e388df0e6f009456c195904256,
  0x2dd003628e388df0e6f004a2b60cac8212b,
  0x2de000e23e9050ce8f70072305b4e9a46a3,
  0x2df00402a2229d397cd00b25a7d786dde70,
  0x2e000402a2229d397cd00995760e60a8705,
  0x2e1002727059770406200a436947360f579,
  0x2e200139382cbb820310090a311a7a8d548,
  0x2e300139382cbb8203100830c1136fccb37,
  0x2e4004b4fca015a75b40037bc4735a25583,
  0x2e5005ee34ccd1295e5005be50b9f8c8ad5,
  0x2e6005ee34ccd1295e5005d642c364f905d,
  0x2e7005e23bc81b11321005d642c364f905d,
  0x2e80060626d63d59b6d005ca49beaee0d99,
  0x2e9005e8384a761d483005ca49beaee0d99,
  0x2ea005e8384a761d483005d94104927f10e,
  0x2eb0062415620496257005d94104927f10e,
  0x2ec0062415620496257002eca082493f887,
  0x2ed00774fb74702a5f6002eca082493f887,
  0x2ee006a71e3c8154b82002eca082493f887,
  0x2ef004885af226ead6f0050b63cca3a969a,
  0x2f00070e0cd878bf8bc00285b1e651d4b4d,
  0x2f100387066c3c5fc5e0060cb8528e347ab,
  0x2f20068b03fdfc00f91001845d606749a3c,
  0x2f30074d32ae2fa5caf000c22eb033a4d1e,
  0x2f4007ae4a06497833e00061175819d268f,
  0x2f50074d32ae2fa5caf001e574b8811c0cb,
  0x2f60049953b35860ebd00b181c1f31dde45,
  0x2f70049953b35860ebd00c720b9c9d8053e,
  0x2f80049953b35860ebd0063905ce4ec029f,
  0x2f90049953b35860ebd0038526d3777b4ad,
  0x2fa0049953b35860ebd0040f3d4367ee1b5,
  0x2fb0049953b35860ebd00454487b6027839,
  0x2fc005236a2348d3bc5003ca320b6fb4b31,
  0x2fd005236a2348d3bc500476ce175c4437b,
  0x2fe004cd1c1d528bfa000476ce175c4437b,
  0x2ff005d0062f356340f00420801165fc756,
  0x300007e04637e8617ba002104008b2fe3ab,
  0x301006006324a72ef88002104008b2fe3ab,
  0x30200510719b0695b6f00c31233ec029a89,
  0x30300510719b0695b6f00a51402b7ef7257,
  0x30400510719b0695b6f00cc14a7e495c252,
  0x30500510719b0695b6f00b7116da2b43c98,
  0x306002700a52ca64ffb009010c8760dec9d,
  0x307002700a52ca64ffb005b88b6d15a1e4c,
  0x3080054c50095535f21002dc45b68ad0f26,
  0x30900677a830de5719b002dc45b68ad0f26,
  0x30a007e5cb0c23bf92e0016e22db4568793,
  0x30b006cf2b3c9cb0bbd0016e22db4568793,
  0x30c006faecc27bdd8ce0016e22db4568793,
  0x30d0058cc9e7367513b00726ae485b0a5df,
  0x30e00659bc17c8bfb8d00726ae485b0a5df,
  0x30f006c0353011e50b600de6e3786cef695,
  0x310006c0353011e50b6002005d796dba9cd,
  0x311003601a9808f285b008c092a97f9fa83,
  0x312003601a9808f285b009707138cd3b9ca,
  0x3130040ff927568e7a2008c092a97f9fa83,
  0x31400207fc93ab473d1008c092a97f9fa83,
  0x31500207fc93ab473d10076c443240baafb,
  0x316004c3a743c2f0beb00564479e957372a,
  0x31700775cb130daa780002b223cf4ab9b95,
  0x3180066d0958d18ef55002b223cf4ab9b95,
  0x31900741ba6358de10a002b223cf4ab9b95,
  0x31a001dd72c4c36a9e0009bfcd82eecb629,
  0x31b000eeb96261b54f0008d114208d16139,
  0x31c000775cb130daa7800859b76f5c3b6c1,
  0x31d00254cf75f44545800859b76f5c3b6c1,
  0x31e0012a67bafa22a2c00859b76f5c3b6c1,
  0x31f0009533dd7d1151600859b76f5c3b6c1,
  0x320002ea0353715696e00a195307d36f603,
  0x3210017501a9b8ab4b7008a4515e1ac414c,
  0x3220017501a9b8ab4b70073c2c027eb8a14,
  0x3230051317aaf8079c10039e16013f5c50a,
  0x3240074908509b5879300229145786b1053,
  0x325006e222ab97b5c4600229145786b1053,
  0x326003711155cbdae230090b37031e66c99,
  0x327003711155cbdae2300acd65b5a17519f,
  0x328003711155cbdae2300a904cdb8282e04,
  0x329003711155cbdae23008b937c38d1c525,
  0x32a006a509d178c38ab00548266dc141702,
  0x32b006a509d178c38ab002a41336e0a0b81,
  0x32c00748a1bb0d52d97002a41336e0a0b81,
  0x32d00748a1bb0d52d97004f65a78f6f9c8c,
  0x32e002524742165910b0088fd18e367176f,
  0x32f002524742165910b00a159aec5317653,
  0x330002524742165910b00633f11734b83af,
  0x331000c2e4af0e52f720088fd18e367176f,
  0x33200061725787297b90082e5f36af47fb6,
  0x3330053b86a1ed20706004da144a65f6f4d,
  0x3340053b86a1ed20706003544aec4951069,
  0x3350029dc350f6903830088fd18e367176f,
  0x3360029dc350f690383008348dc08d110fc,
  0x3370029dc350f69038300955cd8233a8f84,
  0x338004e042d443c00930041a46e0468887e,
  0x339006ed664467044d20020d2370234443f,
  0x33a00583d69256c66a800790fa027a0aae7,
  0x33b00583d69256c66a8004bdda9e598ee93,
  0x33c002c1eb492b6335400a41b130b05553b,
  0x33d00160f5a495b19aa008e0bb8c1aa3b91,
  0x33e006e4cc36ec780520061ed042ef4083d,
  0x33f00372661b763c02900991365e657c866,
  0x34000372661b763c0290083b014aa8fa45c,
  0x34100372661b763c02900b024cdc40f5280,
  0x342004e37c9951b4a430041d80a5547d22e,
  0x343006f23cebfbf335a0020ec052aa3e917,
  0x344007969f1b5276bdb0020ec052aa3e917,
  0x34500587dec8a8382c4004c1e2d4ab00aaf,
  0x346002c3ef64541c16200a49c19d5338d73,
  0x34700161f7b22a0e0b1008e7c9eb292acc2,
  0x348006e9d67ad24637500623da86d50eb60,
  0x349006e9d67ad24637500311ed436a875b0,
  0x34a006e9d67ad24637500188f6a1b543ad8,
  0x34b007ae51cbace80e1000c47b50daa1d6c,
  0x34c007b45458373eb85000c47b50daa1d6c,
  0x34d007b45458373eb85000623da86d50eb6,
  0x34e007e5732c6de72e0000311ed436a875b,
  0x34f00720f7db9345574000f59a25114a4c7,
  0x35000766e4820ecbdd6000f59a25114a4c7,
  0x35100789dad54c8f207000f59a25114a4c7,
  0x352003b372410765eeb004cc02b956737e3,
  0x3530043fba7d2eecb670090bbd36856034a,
  0x3540043fba7d2eecb6700485de9b42b01a5,
  0x35500462cc8c38ce686008e8ab277b7e82b,
  0x35600462cc8c38ce68600974f363a3054a7,
  0x3570023166461c6734300974f363a3054a7,
  0x3580023166461c6734300804931afc1d738,
  0x359002f26c4391e691700804931afc1d738,
  0x35a006f4b5d10ff54b300402498d7e0eb9c,
  0x35b006f4b5d10ff54b30020124c6bf075ce,
  0x35c004f3910a50edee500a05b7e1bb24d06,
  0x35d004f3910a50edee500502dbf0dd92683,
  0x35e004fb367d97402b4009fe126e74d2937,
  0x35f0027d9b3ecba015a009fe126e74d2937,
  0x36000275f5cb854dd8b009fe126e74d2937,
  0x3610063a041cfd10361003c40e5177c25d6,
  0x3620063a041cfd10361001e20728bbe12eb,
  0x36300457fcf4412f0760096a23cbab65e97,
  0x3640022bfe7a209783b0096a23cbab65e97,
  0x3650022bfe7a209783b007f70f9d06963a4,
  0x366007f5d005595634100173142ea4cfaf3,
  0x367006278648a3e2a0d00dc220bfec94f0d,
  0x368006278648a3e2a0d003cd4d3ba459280,
  0x369006278648a3e2a0d001e6a69dd22c940,
  0x36a006278648a3e2a0d00359bacc76fc433,
  0x36b006278648a3e2a0d004c0a08a8d6f720,
  0x36c006278648a3e2a0d00260504546b7b90,
  0x36d0052e1bc1739e16a00359bacc76fc433,
  0x36e002970de0b9cf0b500887d68dea9a59d,
  0x36f0058f72375234b29002f864569865a74,
  0x3700058f72375234b29003bb11425592df2,
  0x3710058f72375234b2900cfc6d0fcf32d4b,
  0x3720058f72375234b29003b67d6c3e7f111,
  0x3730058f72375234b29004a2f7d1c859e1d,
  0x37400768670265ea541002ca0306b4a4405,
  0x3750051935048d474a300cfc6d0fcf32d4b,
  0x3760051935048d474a3003f19c05a0f5c54,
  0x37700640ce037998cf200cfc6d0fcf32d4b,
  0x378003206701bccc679009dc060e12666d2,
  0x379003206701bccc6790080e6a08c5ff9e2,
  0x37a00152cafc7065989009040c1a7e020b0,
  0x37b007279c061fcc36a005d4d109af669e1,
  0x37c00393ce030fe61b5009689f0cbf4cb96,
  0x37d0063963fbf0b14c7005d4d109af669e1,
  0x37e006071a82d00bf54005d4d109af669e1,
  0x37f003038d416805faa008d85e4b176c98b,
  0x38000181c6a0b402fd5008d85e4b176c98b,
  0x38100788e123840ef290014f7d27935da62,
  0x38200788e123840ef29000a7be93c9aed31,
  0x383004184fdba6dee2d008d85e4b176c98b,
  0x384003709147dd300fc00a27db72aaca3ed,
  0x385001b848a3ee9807e0086f92cebc3236f,
  0x386000dc2451f74c03f0086f92cebc3236f,
  0x387000dc2451f74c03f008a4558d0066792,
  0x388000dc2451f74c03f0089ee06054af504,
  0x389000dc2451f74c03f0089c25c9fed3bbd,
  0x38a000dc2451f74c03f0082cb655d83fefa,
  0x38b0044cb599d47c13b00b9d479db56fff6,
  0x38c0044cb599d47c13b005cea3cedab7ffb,
  0x38d0050dacb4579a09b005cea3cedab7ffb,
  0x38e007d8741925da316005cea3cedab7ffb,
  0x38f003ec3a0c92ed18b005cea3cedab7ffb,
  0x390004dd6eedb6d28c3005cea3cedab7ffb,
  0x391006e73f3801f4bde005cea3cedab7ffb,
  0x392003739f9c00fa5ef005cea3cedab7ffb,
  0x393004a121b56dd92f5005cea3cedab7ffb,
  0x39400537e2c22448978005cea3cedab7ffb,
  0x395002dcde8f4a8af6c005cea3cedab7ffb,
  0x3960073d13167ffd7b1005cea3cedab7ffb,
  0x39700685db72ad5abd6005cea3cedab7ffb,
  0x3980039416331d2db47005176c2b0815420,
  0x3990061fcc48a1385570028bb615840aa10,
  0x39a00765a753633da5f00145db0ac205508,
  0x39b004d9f13ddf3304f0065d4735ca1a928,
  0x39c004d9f13ddf3304f0032ea39ae50d494,
  0x39d00671430b51b9a990019751cd7286a4a,
  0x39e0073cebf20afcfbe000cba8e6b943525,
  0x39f00671430b51b9a99003fa4c819e509b9,
  0x3a000535c7c67805229003fa4c819e509b9,
  0x3a1004980a240b2adf1003fa4c819e509b9,
  0x3a200535c7c6780522900c8ca32747cc163,
  0x3a300535c7c67805229003ab6db067e379d,
  0x3a4004709abb6ff44e3003ab6db067e379d,
  0x3a5004709abb6ff44e300977eefb2788c4b,
  0x3a6004709abb6ff44e300b64df96bbb2d7a,
  0x3a7004709abb6ff44e300a230a86cdcdba0,
  0x3a8004709abb6ff44e3009821ffed6db2b3,
  0x3a90028ddb238b1ca1c005b26fcb5dd96bd,
  0x3aa00146ed91c58e50e006f95d5d2367bcb,
  0x3ab0079cd426062ee52006f95d5d2367bcb,
  0x3ac0033151ec6de3ca3006f95d5d2367bcb,
  0x3ad0051557a4c8a5c37006f95d5d2367bcb,
  0x3ae006075a80f606c01006f95d5d2367bcb,
  0x3af0051557a4c8a5c37004ba0e4ce2e4ef2,
  0x3b00051557a4c8a5c37007725ecb3a183b0,
  0x3b10051557a4c8a5c37003b92f659d0c1d8,
  0x3b2006f1ef57972bd23001dc97b2ce860ec,
  0x3b3007cda8231fd90f5000806f73a2ec68d,
  0x3b4004270bcb6162bc1004a77b3f044f24e,
  0x3b50067ac96ae38a4e800253bd9f8227927,
  0x3b6004270bcb6162bc100ba2b41d8ac5dc3,
  0x3b7007e4dff476144c2003bdd42914b1901,
  0x3b8003f26ffa3b0a26100ba2b41d8ac5dc3,
  0x3b9000349bd12658960008057e519d79585,
  0x3ba0001a4de8932c4b0008057e519d79585,
  0x3bb0000d26f44996258008057e519d79585,
  0x3bc00006937a24cb12c008057e519d79585,
  0x3bd00020e162b7f75dc008057e519d79585,
  0x3be0001070b15bfbaee008057e519d79585,
  0x3bf000083858adfdd77008057e519d79585,
  0x3c00002919bb65f5353008057e519d79585,
  0x3c10002919bb65f53530081acf5376a9787,
  0x3c2004ef75306c1960c004c65b7506242b9,
  0x3c300593dc1e03ee358004c65b7506242b9,
  0x3c4007904984081b465004c65b7506242b9,
  0x3c50062b527c871fb8f004c65b7506242b9,
  0x3c60062b527c871fb8f00578d6f8c6a1f24,
  0x3c7006ddce00479d7fa00361646d85289e3,
  0x3c80036ee70023cebfd00a3f326dccc61dd,
  0x3c90036ee70023cebfd00a45f3b71c192ea,
  0x3ca0036ee70023cebfd00a2aee91decceb6,
  0x3cb0036ee70023cebfd008845e491335358,
  0x3cc0036ee70023cebfd00b1ffd24d1381a6,
  0x3cd0036ee70023cebfd00afe36b64498c65,
  0x3ce0036ee70023cebfd00aa575db580282e,
  0x3cf0036ee70023cebfd008c1a1edcfd0014,
  0x3d00036ee70023cebfd007cfb7f70bb6c07,
  0x3d10027cfd095fb57f0009b38be493e9421,
  0x3d20013e7e84afdabf8008750d5fe40e829,
  0x3d30009f3f4257ed5fc008750d5fe40e829,
  0x3d40031c3c4bb7a2dec009144ca23bfbe25,
  0x3d50018e1e25dbd16f6009144ca23bfbe25,
  0x3d6000c70f12ede8b7b0084d3d8f4e132aa,
  0x3d7003e34b5ea58b9670084d3d8f4e132aa,
  0x3d8003e34b5ea58b967004269ec7a709955,
  0x3d900404f513264a95e0082b93dacd542b3,
  0x3da003c1a1aa24cc9700082b93dacd542b3,
  0x3db001e0d0d512664b80082b93dacd542b3,
  0x3dc000f0686a893325c0082b93dacd542b3,
  0x3dd000783435449992e0082b93dacd542b3,
  0x3de00259050a56ffde6008a3c81011edbe1,
  0x3df0012c82852b7fef3008a3c81011edbe1,
  0x3e0004e8254a9eb6d6a003bba2c57336e77,
  0x3e1005de8c99d97fabf003bba2c57336e77,
  0x3e2004cd17afa65b49b003bba2c57336e77,
  0x3e30080000000000000003bba2c57336e77,
  0x3e40080000000000000002aa2ddb4012853,
  0x3e5004000000000000000aaa2ddb4012853,
  0x3e60020000000000000008aa2ddb4012853,
  0x3e70010000000000000008aa2ddb4012853,
  0x3e8001000000000000000852e548405c99f,
  0x3e9000800000000000000852e548405c99f,
  0x3ea000400000000000000812e548405c99f,
  0x3eb00040000000000000081e7a6941cf01b,
  0x3ec00020000000000000081e7a6941cf01b,
  0x3ed00010000000000000080e7a6941cf01b,
  0x3ee000100000000000000808640e490b087,
  0x3ef000080000000000000800640e490b087,
  0x3f0000040000000000000800640e490b087,
  0x3f1000020000000000000800640e490b087,
  0x3f2000020000000000000801f4476d372a3,
  0x3f3000010000000000000800f4476d372a3,
  0x3f400000800000000000080074476d372a3,
  0x3f500000800000000000080045652213d2f,
  0x3f600000400000000000080005652213d2f,
  0x3f700000200000000000080005652213d2f,
  0x3f80000020000000000008001af9aa631eb,
  0x3f90000010000000000008000af9aa631eb,
  0x3fa00000080000000000080002f9aa631eb,
  0x3fb00000040000000000080002f9aa631eb,
  0x3fc00000040000000000080002e053ef997,
  0x3fd00000020000000000080000e053ef997,
  0x3fe00000010000000000080000e053ef997,
  0x3ff0000001000000000008000061a3adff3]

set_option maxRecDepth 100000 in
theorem certs64_1_ok : checkAll .b64 (mainCheck .b64) 512 certs64_1 = true := by decide +kernel

end Grisu
