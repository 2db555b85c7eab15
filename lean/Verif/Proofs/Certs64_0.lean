import Verif.Proofs.ExpTable

/-! # Certificates for the binary64 exponents -1085 to -574

Generated: entry `i * 2^128 + b * 2^64 + d` holds the denominators of the Stern-Brocot neighbours for
the exponent `min_exponent + i`. -/

namespace Grisu

def certs64_0 : List Nat := [
  0x7c79de6c0dd6cc000978e403f788bf,
  0x1007712474dd41fe0000978e403f788bf,
  0x20057f3cfb2d0aa2d00b960836998dd19,
  0x3004e7aebaed9216e00cc524b7187ee97,
  0x400273d75d76c90b700a514d59a1b5de0,
  0x500273d75d76c90b700a105567be6d05e,
  0x60077c021155ff8e6005082ab3df3682f,
  0x70073b0a1f72b6b64005082ab3df3682f,
  0x80039d850fb95b5b2005082ab3df3682f,
  0x9006d6ed3bbbe4308005082ab3df3682f,
  0xa000641ce3b6d285c0084192dfe1bf585,
  0xb000320e71db6942e0080f846e0656157,
  0xc000190738edb4a170080f846e0656157,
  0xd0007d241ca487273007f67d3518a1740,
  0xe0047862b730d7e13003fb3e9a8c50ba0,
  0xf00676020477003e3001fd9f4d46285d0,
  0x100027ac369eaaf843009f41c825ec9d10,
  0x1100774d1ab1a146cb004fa0e412f64e88,
  0x1200774d1ab1a146cb0027d072097b2744,
  0x1300774d1ab1a146cb0013e83904bd93a2,
  0x14004f7ca8a8261f8700b305c5bfda01b1,
  0x15004f7ca8a8261f870031c48e8bd9f115,
  0x160040a09b9a00084e00b305c5bfda01b1,
  0x17000edc0d0e2617390081f6604a10fba1,
  0x18000edc0d0e2617390083d96ae4b3e651,
  0x19005836c9079315fe00495abbf96cfec5,
  0x1a004a4c4146be741d003a7eaeeb46e78c,
  0x1b00678b98bc61e7e3001d3f5775a373c6,
  0x1c00762b447733a1c6000e9fabbad1b9e3,
  0x1d0075945126e0b86f000e9fabbad1b9e3,
  0x1e003b15a23b99d0e300491e5aa618a16f,
  0x1f004219fe70d93929008b385916f1da98,
  0x20004219fe70d939290087b62afc522675,
  0x21004219fe70d939290095bee366d0f701,
  0x22004219fe70d9392900ae066f5cae513e,
  0x23004219fe70d9392900991d361f3061c8,
  0x240018478bf5dd5a3d0080d5aa2953078b,
  0x250064d62705758b21004c8e9b0f9830e4,
  0x260064d62705758b210026474d87cc1872,
  0x270077f9cdc95b975a001323a6c3e60c39,
  0x280051b280418f7ee8005fb241d37e3d1d,
  0x290028d94020c7bf74005fb241d37e3d1d,
  0x2a00741ee1e3e21cd7005fb241d37e3d1d,
  0x2b00661f2051f35ea20036d901b2b67da9,
  0x2c00330f9028f9af510069e891dbb02cfa,
  0x2d006803d916d1c5ce0034f448edd8167d,
  0x2e00643a678d14f7760036d901b2b67da9,
  0x2f0068f6357940f9640036d901b2b67da9,
  0x3000347b1abca07cb2009fcf372bf7770d,
  0x31001a3d8d5e503e59008591a9cda738b4,
  0x32001a3d8d5e503e59008f0945a5ff3c90,
  0x33001a3d8d5e503e5900963d4aedf05953,
  0x34001a3d8d5e503e59008cb886e2c0c888,
  0x350079aefecc61a6f2000984c40b2f90cb,
  0x36003cd77f6630d37900465c4371606444,
  0x37006005a11ee1059b00232e21b8b03222,
  0x38005d20b2aad2f49100232e21b8b03222,
  0x39006eb7c3872b0da200119710dc581911,
  0x3a007db82534f5eb1500119710dc581911,
  0x3b007c6ccd9daf4d4600119710dc581911,
  0x3c0047a79b08a702130057f3544db87d55,
  0x3d004fcd77ab2fbfb400a7c0cbf8e83d09,
  0x3e0027e6bbd597dfda00a7c0cbf8e83d09,
  0x3f001fc0df330f22390087ffecc5d91ad0,
  0x400063c0d595fbafa10043fff662ec8d68,
  0x410063c0d595fbafa10021fffb317646b4,
  0x420041c0da648568ed00a9ffe7f74f6184,
  0x430041c0da648568ed0096c0ce602d19af,
  0x44006c40d46259414e002a7ff9fdd3d861,
  0x450036206a312ca0a70096c0ce602d19af,
  0x460077e14495b20994001edf89ca7b101b,
  0x47003bf0a24ad904ca0096c0ce602d19af,
  0x48001df851256c82650096c0ce602d19af,
  0x49003b0969a5ca7714005ad02c155414e5,
  0x4a007854e0e839506f005ad02c155414e5,
  0x4b007854e0e839506f006992867ec6b2aa,
  0x4c0049cbc40f3d14d9006992867ec6b2aa,
  0x4d007e95074ea06e2e0034c9433f635955,
  0x4e007413c6e6b3906c0034c9433f635955,
  0x4f006ed326b2bd218b0034c9433f635955,
  0x50003a09e37359c8360093da89563d2e3d,
  0x51001d04f1b9ace41b0093da89563d2e3d,
  0x52001d04f1b9ace41b009279a0fb4ed162,
  0x530038a8fb186b6b5b00586fbd87f5092c,
  0x540064e0d9dc65eff1002c37dec3fa8496,
  0x55007afcc93e63323c00161bef61fd424b,
  0x560038a8fb186b6b5b006e8bace9f24b77,
  0x5700539a54012edb6900c22600eb2126e0,
  0x5800539a54012edb690061130075909370,
  0x5900539a54012edb69003089803ac849b8,
  0x5a00539a54012edb69004b7ad9238bb9c6,
  0x5b00539a54012edb69007957c092f4b84c,
  0x5c00539a54012edb69003cabe0497a5c26,
  0x5d0016ee73b7b47f43008ed637697451e9,
  0x5e0016ee73b7b47f430080bf3cfffd671c,
  0x5f00574e1237b332d100405f9e7ffeb38e,
  0x600016ee73b7b47f43008a6a7ac25587ae,
  0x610016ee73b7b47f43008a0098884841a0,
  0x620072dd33b38d1f56005beebffbd8a013,
  0x6300396e99d9c68fab005beebffbd8a013,
  0x6400396e99d9c68fab00ac80beaa5a5208,
  0x6500396e99d9c68fab008faef92ef3b8af,
  0x6600396e99d9c68fab009dfd635e23b3d8,
  0x67006459d867568126001cd1c57b669959,
  0x6800322cec33ab4093004efeb1af11d9ec,
  0x690059ac450b342d8900277f58d788ecf6,
  0x6a003cda7f8fcd94300044511e52ef864f,
  0x6b001e6d3fc7e6ca180062be5e1ad65067,
  0x6c0071f4fdfec9b5730062be5e1ad65067,
  0x6d004c111f73c0f93c005387be36e2eb5b,
  0x6e0079904df0c367f9005387be36e2eb5b,
  0x6f00668c0613d329aa005387be36e2eb5b,
  0x700033460309e994d50086cdc140cc8030,
  0x710079904df0c367f9000d3d7350091837,
  0x720079904df0c367f9004366e0a0664018,
  0x730079904df0c367f90021b3705033200c,
  0x7400664df100d227290021b3705033200c,
  0x75007727a928ebb72f0010d9b828199006,
  0x76007f94853cf87f3200086cdc140cc803,
  0x77006ebacd14deef2c002a204c643fe80f,
  0x7800617db2eeaf5fa5002a204c643fe80f,
  0x79006fef4c0db78be9002a204c643fe80f,
  0x7a007728189d3ba20b002a204c643fe80f,
  0x7b006fef4c0db78be900315918f3c3fe31,
  0x7c0050a43280bdc50d00315918f3c3fe31,
  0x7d0050a43280bdc50d0040fea5ba40e19f,
  0x7e007f94d8d4346f5700315918f3c3fe31,
  0x7f005876f8e3fc36c400315918f3c3fe31,
  0x80002c3b7c71fe1b620089d011d7c034f5,
  0x81007a773c526e8c8800315918f3c3fe31,
  0x82006e94b71cfb447500315918f3c3fe31,
  0x83006e94b71cfb4475004ff6e8085fa153,
  0x84005f45cf92ad72e4004ff6e8085fa153,
  0x85000f4ee78a4dd191008b9527fab33bfe,
  0x86000f4ee78a4dd191008306322690e443,
  0x87007717437758cf9d0067c85bed0afe0c,
  0x88004c8a85b38517d500492a8cd86f5aea,
  0x8900711fcc1fbcc54a002495466c37ad75,
  0x8a005d252c7c16101a002495466c37ad75,
  0x8b0063e51e324189f0002495466c37ad75,
  0x8c007b1d1bf1901fe2002495466c37ad75,
  0x8d006223d464ffbd66002495466c37ad75,
  0x8e003111ea327fdeb30086b91ad1376adb,
  0x8f003d8e8df8c80ff1007a3c770aef399d,
  0x90005be58281dba4c700d621f98ccade64,
  0x91005be58281dba4c700c6f67f484113f9,
  0x92002e6313b43e4586007a3c770aef399d,
  0x9300173189da1f22c300916e00e50e5c60,
  0x94005fe88a4ca650f30048b70072872e30,
  0x950073f7b1429badcf0031857698680b6d,
  0x960052be93ed81dc9e0031857698680b6d,
  0x9700295f49f6c0ee4f005ae4c08f28f9bc,
  0x980056d1aa3e556b2d002d726047947cde,
  0x990056d1aa3e556b2d0035988ce93b99fc,
  0x9a0056d1aa3e556b2d00719df0b2f3382b,
  0x9b006437cd78a451ac00719df0b2f3382b,
  0x9c007deb28fa946278000d66233a4ee67f,
  0x9d00748e216685cb38000d66233a4ee67f,
  0x9e007d45c0d6cd6617000d66233a4ee67f,
  0x9f007533898a4cc799000d66233a4ee67f,
  0xa00076e5634b897108000d66233a4ee67f,
  0xa1007e7161c94f38ff000d66233a4ee67f,
  0xa2005351e5bc1df63e00b409eeb28ad2fb,
  0xa30079d275a9ce004c000d66233a4ee67f,
  0xa4007fe7eaf87180a1000d66233a4ee67f,
  0xa50061734d8dfe008e006ed970c84ce70d,
  0xa60061734d8dfe008e0042feb0238a807b,
  0xa70030b9a6c6ff004700a471fdb1888109,
  0xa80030b9a6c6ff0047009b4f790342c0ef,
  0xa9007fe7eaf87180a10039dc2b7544c061,
  0xaa005ce20b36db20810039dc2b7544c061,
  0xab004b5f1b560ff0710039dc2b7544c061,
  0xac004b5f1b560ff07100429da365aa5869,
  0xad005ce20b36db208100311ab384df2859,
  0xae005ce20b36db20810046fe5f5ddd246d,
  0xaf0051f0354a5c22770046fe5f5ddd246d,
  0xb00051f0354a5c227700bf177240997133,
  0xb10051f0354a5c22770036939e7b1ea75e,
  0xb20051f0354a5c2277006d3a0487eb7626,
  0xb3000012c791ae276a00800165c290edcd,
  0xb400000963c8d713b500800165c290edcd,
  0xb50044469bc728eec500443d37fe51db10,
  0xb60044469bc728eec500aaabd38d7acb12,
  0xb700666e9b8f28f002002215383651d9d3,
  0xb80033374dc7947801008883d3c57ac9d5,
  0xb90033374dc7947801005ddd90c687a0eb,
  0xba0033374dc794780100a20801332b5491,
  0xbb0033374dc7947801009dd6f544f45e4a,
  0xbc0033374dc7947801008222c86a0ea726,
  0xbd007df1bc7bd7b0df0004310bee36f647,
  0xbe007df1bc7bd7b0df0041116435075393,
  0xbf005f8190586f82390041116435075393,
  0xc00050497a46bb6ae60041116435075393,
  0xc1000f381611b41753008eb5ec34b389fb,
  0xc2000f381611b41753008bd7596a042df3,
  0xc3005cbfcdcf9039f6004d87b7bddc22a3,
  0xc4005cbfcdcf9039f600ca26fb162c3943,
  0xc5002e5fe6e7c81cfb009bc7142e641c48,
  0xc6002e5fe6e7c81cfb00aaa357e6c2481a,
  0xc70069d0f5c940cc43001f83a32f69f129,
  0xc800642defabbf4fdf001f83a32f69f129,
  0xc900642defabbf4fdf0041d8c96d94a084,
  0xca00642defabbf4fdf0020ec64b6ca5042,
  0xcb006596b1331faef8001f83a32f69f129,
  0xcc0032cb58998fd77c00524efbc8f9c8a5,
  0xcd006bb4a815c1b46300524efbc8f9c8a5,
  0xce007efc5d7fe79ab6001f83a32f69f129,
  0xcf005f01d1ef5dbe8400dd87470e256e31,
  0xd0002f80e8f7aedf4200ae065e16768eef,
  0xd1002f80e8f7aedf42009d922fed11b5cd,
  0xd20017c0747bd76fa10085d1bb713a462c,
  0xd30017c0747bd76fa1008a2a3b2c2371f9,
  0xd40017c0747bd76fa1009088b0bc563266,
  0xd50017c0747bd76fa1008f85b5d1b16816,
  0xd60017c0747bd76fa1008f04385c5f02ee,
  0xd70017c0747bd76fa1008ec379a1b5d05a,
  0xd80076c2466b352e2500edc54b91138ede,
  0xd90076c2466b352e2500eda4ec33bef594,
  0xda0076c2466b352e2500ed94bc8514a8ef,
  0xdb0076b216bc8ae18000edb51be2694239,
  0xdc003b590b5e4570c000b25c108423d179,
  0xdd001dac85af22b8600094af8ad5011919,
  0xde001d5b9745cf39270077030525de60b9,
  0xdf004a2f4e35d6ccf000c132535bb52da9,
  0xe0002517a71aeb6678009c1aac40c9c731,
  0xe100128bd38d75b33c00898ed8b35413f5,
  0xe2005cbb21c34c802c002cd3b6f00793c9,
  0xe3002e5d90e1a6401600898ed8b35413f5,
  0xe400172ec870d3200b00898ed8b35413f5,
  0xe50073e9ea341fa0370044027f60dab3d4,
  0xe60073e9ea341fa0370022013fb06d59ea,
  0xe70073e9ea341fa0370011009fd836acf5,
  0xe8007880b736d9e33c0011009fd836acf5,
  0xe9006f423b2410f87d0011009fd836acf5,
  0xea0073234d06c7d9980011009fd836acf5,
  0xeb004a92465b9a99c1005b92e633d146b6,
  0xec00179066d2f692e2006c93860c07f3ab,
  0xed00785bb975833d1c006c93860c07f3ab,
  0xee003c2ddcbac19e8e00a8c162c6c99239,
  0xef003c2ddcbac19e8e00b5ce71db9e0b03,
  0xf0001e16ee5d60cf470097b7837e3d3bbc,
  0xf1001e16ee5d60cf470088099e79e03c6c,
  0xf2000e69095903cff70088099e79e03c6c,
  0xf300526dd895f3ee2d004404cf3cf01e36,
  0xf400747040346bfd48002202679e780f1b,
  0xf5003a38201a35fea4005c3a87b8ae0dbf,
  0xf6001835b87bbdef890091d64d9c9a5bfe,
  0xf700795697c5c90d11006120df4a0b1d88,
  0xf800795697c5c90d110030906fa5058ec4,
  0xf900790c9a6ab5adad00185ab729479f3b,
  0xfa00610e5ff34645af00da77770fd42a99,
  0xfb00610e5ff34645af003cb48b8e46f275,
  0xfc002459d464ff533a009e1f6833656f61,
  0xfd00122cea327fa99d008bf27e00e5c5c4,
  0xfe00122cea327fa99d008eace7ca718956,
  0xff006bb0484a3817e50059835e17b86e48,
  0x10000122cea327fa99d008a95491c1fe3fb,
  0x10100122cea327fa99d0084e7d83ecec3a3,
  0x10200122cea327fa99d0082111fd0263377,
  0x103005ae092fc7e5011005db74b6b26e03d,
  0x104005c4bef33d2982700ba033a9ef97864,
  0x105005c4bef33d29827005d019d4f7cbc32,
  0x10600597536c52a07fb005d019d4f7cbc32,
  0x10700597536c52a07fb002e80cea7be5e19,
  0x10800727bd15e329123002e80cea7be5e19,
  0x109007eff1eaab6d5b7002e80cea7be5e19,
  0x10a007eff1eaab6d5b7006984ea9c0100c6,
  0x10b007eff1eaab6d5b70034c2754e008063,
  0x10c0059e0c9fc5bab0d0034c2754e008063,
  0x10d00157a340eb5d4f1008ea33f4a5c2b70,
  0x10e005ccbd3b3e3eaa90047519fa52e15b8,
  0x10f005ccbd3b3e3eaa90023a8cfd2970adc,
  0x110006b6304498d28b50023a8cfd2970adc,
  0x111007d376c32d8ae230011d467e94b856e,
  0x112007d376c32d8ae230008ea33f4a5c2b7,
  0x11300788e07cfa1c8b70008ea33f4a5c2b7,
  0x1140054e537fd0abddb002c9303c73ccd93,
  0x115006d4f21a960934a002c9303c73ccd93,
  0x11600633a949bed1738002c9303c73ccd93,
  0x117000a148d0d737c120084261d6b20a73d,
  0x11800050a4686b9be090084261d6b20a73d,
  0x1190076fef33c2e9efd0071f4acb574e0f4,
  0x11a00193360a1a0b62d006cea662ebb22eb,
  0x11b00430ee3682dec8c006cea662ebb22eb,
  0x11c00218771b416f646008e71d7e2d21931,
  0x11d0010c3b8da0b7b23008e71d7e2d21931,
  0x11e0053d29c423967af006cea662ebb22eb,
  0x11f00605e81387a454d00cd48e767356838,
  0x12000605e81387a454d0066a473b39ab41c,
  0x121004746b74bf88a110066a473b39ab41c,
  0x122007a98f125c5e41f00335239d9cd5a0e,
  0x123007a98f125c5e41f0019a91cece6ad07,
  0x124004746b74bf88a11003906d95488d712,
  0x1250063ca23f63cf59a001c836caa446b89,
  0x1260031e511fb1e7acd00804d90a0816123,
  0x127005919514dcfedf80027343f52b1732b,
  0x128000ab0d2a86d07a20083e04caae9120b,
  0x12900055869543683d10083e04caae9120b,
  0x12a006f5fa5a143e976006a073c4d0d65a5,
  0x12b0074b80ef57a6d470059fe005069da32,
  0x12c0074b80ef57a6d47002cff002834ed19,
  0x12d0074b80ef57a6d470050db878ed7ad30,
  0x12e0023dc8766a2c017009941f1fbc3214f,
  0x12f0023dc8766a2c01700826bc417d5b0ca,
  0x1300023dc8766a2c01700651269728d987c,
  0x1310006832cc15aa7c90085b86bb7b329f4,
  0x132005665bc1fe98c55004fe28f5e8ee48c,
  0x133005665bc1fe98c55007e5703cf30fe9b,
  0x134006a5e5ff78d4578007e5703cf30fe9b,
  0x1350070726f25542b790013f8a3d7a3b923,
  0x136007e1f7505671db70013f8a3d7a3b923,
  0x1370070fd541dccddb30013f8a3d7a3b923,
  0x13800490c0c6e856b6d00ace73fa4b8091c,
  0x13900490c0c6e856b6d0056739fd25c048e,
  0x13a007445dc57b36db4002b39cfe92e0247,
  0x13b007a4c07d307db7c000d679363d69921,
  0x13c00655cbe1507b92100d8210f8de60b63,
  0x13d00655cbe1507b92100396228bc6f2921,
  0x13e004f5f7368bb712100396228bc6f2921,
  0x13f006df2755d7d680000396228bc6f2921,
  0x14000705b636b2ddd2100396228bc6f2921,
  0x1410054dec613ce832100396228bc6f2921,
  0x14200705b636b2ddd21005747b4217ef842,
  0x14300705b636b2ddd21002ba3da10bf7c21,
  0x144004dff9ebdf6aca100c7a3178cacd563,
  0x14500705b636b2ddd210034ebef7447c7c2,
  0x14600705b636b2ddd21001a75f7ba23e3e1,
  0x14700705b636b2ddd21004568ad92a8e081,
  0x148005ae2087eeb5ed1004568ad92a8e081,
  0x149006b5ec69d4c7790004568ad92a8e081,
  0x14a007b1810e14f1c49004568ad92a8e081,
  0x14b0060405f39fbfe65004568ad92a8e081,
  0x14c005ba57c5949d2d7002a90fbeb55c29d,
  0x14d006dac380da58d57002a90fbeb55c29d,
  0x14e006dac380da58d57004c1e99fc7da7fa,
  0x14f00188a4036fa081d0076af95e7d36a97,
  0x15000479ceb0f66b95a00be4c80f73a23f1,
  0x1510023ce7587b35cad009a7e0b6f86c744,
  0x15200710d7b3f76c04f004d3f05b7c363a2,
  0x1530023ce7587b35cad008795e5e0e9696f,
  0x1540023ce7587b35cad009d4f18c3b51c68,
  0x1550023ce7587b35cad00727601e98deae1,
  0x156005d561df2326c53002ad916da273187,
  0x157006ef0b140540074002ad916da273187,
  0x15800377858a02a003a0099c9c81a7b31fb,
  0x1590044179a662cceed008d2a8654786348,
  0x15a0044179a662cceed004695432a3c31a4,
  0x15b0067623bfb4ae7bf00234aa1951e18d2,
  0x15c0079078cc5d9f4280011a550ca8f0c69,
  0x15d0067623bfb4ae7bf00583a93f4cb3e0d,
  0x15e005fce67f80b12e600583a93f4cb3e0d,
  0x15f002fe733fc058973008821c7f0d0c780,
  0x160002fe733fc0589730099b9abdfd6fd8f,
  0x161002fe733fc0589730094b7a3e9f3ccf4,
  0x162002fe733fc05897300aa2a39ed04f960,
  0x163006b3cee0f55de1c001a749df8f45d07,
  0x164006a87b2f993a91c001a749df8f45d07,
  0x165003543d97cc9d48e0084fc50f2880623,
  0x166001aa1ecbe64ea470084fc50f2880623,
  0x16700501315009f4c150035168ab759474e,
  0x168006a9e5a5c4befbc001a8b455baca3a7,
  0x169004fda7289d29b8500ba402a6f51dab1,
  0x16a004fda7289d29b850034dde8408c96be,
  0x16b004fda7289d29b8500ba23d933eb8269,
  0x16c004fda7289d29b85003524b3550c7372,
  0x16d004fda7289d29b8500b9dd0e1f6ba5b5,
  0x16e004fda7289d29b850035014dcacc8518,
  0x16f004fda7289d29b8500ba358bf90b7996,
  0x170004fda7289d29b8500acf53886585850,
  0x1710078fd64486b4edb000d405372b32146,
  0x172007f9d8e01c4df7e0006a029b95990a3,
  0x173007b703e8508857a0006a029b95990a3,
  0x174007ee5290546cc440006a029b95990a3,
  0x175007b140c06c97bdd0006a029b95990a3,
  0x176007c7b9264379bfb0006a029b95990a3,
  0x177007d7da2a7d8ac260006a029b95990a3,
  0x178007a6048d8126bce0006a029b95990a3,
  0x179007f71c5a988dc450006a029b95990a3,
  0x17a007eaa6f35974c2f0006a029b95990a3,
  0x17b006429c8503109a3002120d09ebfd32f,
  0x17c0042a54c77786e690063c61d16384198,
  0x17d0074885b02948f350031e30e8b1c20cc,
  0x17e0042a54c77786e6900b6c9fc40143593,
  0x17f0042a54c77786e6900bf5cf0d33ec067,
  0x1800042a54c77786e69003e5bd22de328ff,
  0x181004f81bb54383ea7003a1257e44de395,
  0x1820044ca099c43111e007edc618090f4b3,
  0x18300226504ce21888f007edc618090f4b3,
  0x1840050a0b327593ea100cf7d14a7ea3354,
  0x185007305b7f57ac730003a1257e44de395,
  0x186003982dbfabd639800ad180fd9c8aac5,
  0x187001cc16dfd5eb1cc009056a1dc69f8f9,
  0x1880072763c0bea4733001d50e9e6ef31c9,
  0x1890047e392f96cbc7e00ad180fd9c8aac5,
  0x18a0023f1c97cb65e3f008926465d124c86,
  0x18b0072763c0bea4733004142b363a59008,
  0x18c0072763c0bea47330020a159b1d2c804,
  0x18d0072763c0bea4733001050acd8e96402,
  0x18e007a9e92785ef934000828566c74b201,
  0x18f0072763c0bea47330028c9b01e477a05,
  0x190004d9ff61518e09c007669a633605aa1,
  0x1910026cffb0a8c704e007669a633605aa1,
  0x1920024d645f6d166970078635b471b6458,
  0x193006107f39a5f18c3003c31ada38db22c,
  0x194007f20ca6c25f1d9001e18d6d1c6d916,
  0x195007bfdb02e894ec7001e18d6d1c6d916,
  0x196007bfdb02e894ec7000f0c6b68e36c8b,
  0x1970072aa500660a34a000f0c6b68e36c8b,
  0x1980045850dcbb65da9004b3e190c711eb7,
  0x199004861936c13be30004b3e190c711eb7,
  0x19a006f6ee2c27afdcf004b3e190c711eb7,
  0x19b006f6ee2c27afdcf005d567de7760e43,
  0x19c005a79f84718adbc003925b4316c2f2b,
  0x19d002d3cfc238c56de006662b054f88609,
  0x19e007d012e66beb178006662b054f88609,
  0x19f0071187658ded92b003925b4316c2f2b,
  0x1a000551f154525842b003925b4316c2f2b,
  0x1a100551f154525842b00472264bb48d9ab,
  0x1a200551f154525842b00b96dcd1e213801,
  0x1a300551f154525842b0032275bec7dd9eb,
  0x1a400551f154525842b0043a33898d1af0b,
  0x1a5004c6126eefb999b0043a33898d1af0b,
  0x1a600669af1f179594b003ae54a42a7c47b,
  0x1a70050c01e1a108ee3003ae54a42a7c47b,
  0x1a80050c01e1a108ee30045d2b42e5c29af,
  0x1a90071885bdd2dbe7f003ae54a42a7c47b,
  0x1aa005636d30feac17d003ae54a42a7c47b,
  0x1ab005636d30feac17d00488e0ea94942fc,
  0x1ac005636d30feac17d00be58a32e98cbf2,
  0x1ad005636d30feac17d00b56324a7372776,
  0x1ae005636d30feac17d005ab192539b93bb,
  0x1af00587432b1c32a9c005ab192539b93bb,
  0x1b0005636d30feac17d00b7a084490f9095,
  0x1b1005636d30feac17d0030b4d89c92678c,
  0x1b2006e913f5e33f54300185a6c4e4933c6,
  0x1b3002581fa735859f1009f4617fac65ccf,
  0x1b400626409370f5b60003ce20ec3b7016f,
  0x1b5003132049b87adb0009f4617fac65ccf,
  0x1b60056b3ff0ee007a100489218ebe6552e,
  0x1b7007afd0b84d332380024490c75f32a97,
  0x1b8003d7e85c269991c009f4617fac65ccf,
  0x1b9001ebf42e134cc8e008086d519919041,
  0x1ba0037f4bc2dab3b130061c792385cc3b3,
  0x1bb004cde273303ff6300aea5b96b60c316,
  0x1bc004cde273303ff63005752dcb5b0618b,
  0x1bd007a5e2dde02d84e005752dcb5b0618b,
  0x1be003d2f16ef016c27005752dcb5b0618b,
  0x1bf004a40f9d258e6d9005752dcb5b0618b,
  0x1c0003d2f16ef016c2700bbb79c4eb83dc8,
  0x1c1003d2f16ef016c27005ddbce275c1ee4,
  0x1c2006c1cfe02af7b99002eede713ae0f72,
  0x1c3006c1cfe02af7b99001776f389d707b9,
  0x1c4006c1cfe02af7b99007552c1b133269d,
  0x1c50070b7dfd9f1511b00e60aa18b2477b8,
  0x1c60070b7dfd9f1511b00730550c5923bdc,
  0x1c70067821c2b6da61700730550c5923bdc,
  0x1c80067821c2b6da617003982a862c91dee,
  0x1c90067821c2b6da617001cc15431648ef7,
  0x1ca002dff73c8a48829008fc6a4f6f6cad3,
  0x1cb005ee30c5fcda97e0030e39897292155,
  0x1cc002f71862fe6d4bf008fc6a4f6f6cad3,
  0x1cd005f9c15936ecfc900302a8f6387fb0a,
  0x1ce007f5a2847d36b330000b90933a1264b,
  0x1cf0076f8541191a7030077b15d4532cd4e,
  0x1d00076f8541191a703003bd8aea29966a7,
  0x1d1007fede460ce8dd40000b90933a1264b,
  0x1d2007f921befcc70b20000b90933a1264b,
  0x1d3004aa097fe5776be0095fa39305013c7,
  0x1d40048757c637403dd004c12aa6599c354,
  0x1d5006e7ed19640e5870026095532cce1aa,
  0x1d6006e7ed19640e587001304aa996670d5,
  0x1d70066cb134aa08cd800e09ad12ea78a85,
  0x1d80053c668b13a1c0300b2ddbdb03a502c,
  0x1d90053c668b13a1c0300ad354789574419,
  0x1da0053c668b13a1c03002cb76f6c0e940b,
  0x1db0053c668b13a1c030038085bb9d4ac31,
  0x1dc0053c668b13a1c030045e7623587641a,
  0x1dd0053c668b13a1c030076ba19cbfdce10,
  0x1de003eb1be122921df0076ba19cbfdce10,
  0x1df007a0ecaf82808e7003b5d0ce5fee708,
  0x1e0007a0ecaf82808e7001dae8672ff7384,
  0x1e1007a0ecaf82808e7000ed743397fb9c2,
  0x1e2006b3787bea84f25004a34501f7ea0ca,
  0x1e3006b3787bea84f2500251a280fbf5065,
  0x1e4006d42fff6f3202a00251a280fbf5065,
  0x1e5006b3787bea84f25002725a0480a216a,
  0x1e6007eca57e2ad5fda001392d0240510b5,
  0x1e70052f7fc155bc0a200b982c84ebc91f9,
  0x1e8006b3787bea84f2500668acc3960d157,
  0x1e90068e129fc04903e00668acc3960d157,
  0x1ea00347094fe02481f009afb6137631976,
  0x1eb00347094fe02481f004d7db09bb18cbb,
  0x1ec004fd40e5e554ba200668acc3960d157,
  0x1ed0027ea072f2aa5d100668acc3960d157,
  0x1ee00473a69b445bb9400adc535eda68ceb,
  0x1ef003083abd93a35df00668acc3960d157,
  0x1f0004b873c094d839b00668acc3960d157,
  0x1f10059090421572a7900bf93d05ab7fbd0,
  0x1f2003083abd93a35df00740c94516a7835,
  0x1f3005248201552570a00c654b466bccf3f,
  0x1f4002924100aa92b85009d30a45c13a3ba,
  0x1f500075f9bce910a5a0083f83a23a37215,
  0x1f60003afcde748852d0080486c3c5aece8,
  0x1f7006502412702aa36006152733fba2509,
  0x1f8003281209381551b0093d393d33b7a24,
  0x1f9003630ee7ac9da48009023c5ebf2f4f7,
  0x1fa001b18773d64ed24009023c5ebf2f4f7,
  0x1fb000d8c3b9eb276920082978a4d407e65,
  0x1fc0043bd2a197c50da009023c5ebf2f4f7,
  0x1fd0021de950cbe286d009023c5ebf2f4f7,
  0x1fe007adfc28916b71f0059012d7c588eb2,
  0x1ff005057bbc35e3b6f0059012d7c588eb2]

set_option maxRecDepth 100000 in
theorem certs64_0_ok : checkAll .b64 (mainCheck .b64) 0 certs64_0 = true := by decide +kernel

end Grisu
