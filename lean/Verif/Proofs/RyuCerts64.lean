import Verif.Proofs.RyuExp

/-! # Certificates for the binary64 exponents of Ryu

Generated: entry `i * 2^128 + b * 2^64 + d` holds the denominators of the Stern-Brocot neighbours for
the exponent `-1076 + i`. -/

namespace Grisu.Ryu

def dCerts0 : List Nat := [
  0x7c79de6c0dd6cc000978e403f788bf,
  0x1007712474dd41fe0000978e403f788bf,
  0x20057f3cfb2d0aa2d00b960836998dd19,
  0x30057f3cfb2d0aa2d0030b659db641976,
  0x400273d75d76c90b700a514d59a1b5de0,
  0x500273d75d76c90b700a105567be6d05e,
  0x60077c021155ff8e6005082ab3df3682f,
  0x70073b0a1f72b6b64005082ab3df3682f,
  0x80039d850fb95b5b2005082ab3df3682f,
  0x9006d6ed3bbbe4308005082ab3df3682f,
  0xa000641ce3b6d285c0084192dfe1bf585,
  0xb000320e71db6942e0080f846e0656157,
  0xc000190738edb4a170080f846e0656157,
  0xd0007d241ca487273007f67d3518a1740,
  0xe0047862b730d7e13003fb3e9a8c50ba0,
  0xf00676020477003e3001fd9f4d46285d0,
  0x1000774d1ab1a146cb000fecfa6a3142e8,
  0x1100774d1ab1a146cb004fa0e412f64e88,
  0x1200774d1ab1a146cb0027d072097b2744,
  0x1300774d1ab1a146cb0013e83904bd93a2,
  0x14004f7ca8a8261f8700b305c5bfda01b1,
  0x15004f7ca8a8261f870031c48e8bd9f115,
  0x160040a09b9a00084e00b305c5bfda01b1,
  0x17000edc0d0e2617390081f6604a10fba1,
  0x18000edc0d0e2617390083d96ae4b3e651,
  0x19005836c9079315fe00495abbf96cfec5,
  0x1a007576207d3689c400495abbf96cfec5,
  0x1b00678b98bc61e7e3001d3f5775a373c6,
  0x1c00762b447733a1c6000e9fabbad1b9e3,
  0x1d0075945126e0b86f000e9fabbad1b9e3,
  0x1e003b15a23b99d0e300491e5aa618a16f,
  0x1f004219fe70d93929008b385916f1da98,
  0x20004219fe70d939290087b62afc522675,
  0x21004219fe70d939290095bee366d0f701,
  0x22004219fe70d9392900ae066f5cae513e,
  0x23004219fe70d9392900991d361f3061c8,
  0x24004219fe70d93929008ea89980716a0d,
  0x250064d62705758b21004c8e9b0f9830e4,
  0x260064d62705758b210026474d87cc1872,
  0x270077f9cdc95b975a001323a6c3e60c39,
  0x280051b280418f7ee8005fb241d37e3d1d,
  0x290028d94020c7bf74005fb241d37e3d1d,
  0x2a00741ee1e3e21cd7005fb241d37e3d1d,
  0x2b00661f2051f35ea20036d901b2b67da9,
  0x2c00330f9028f9af510069e891dbb02cfa,
  0x2d006803d916d1c5ce0034f448edd8167d,
  0x2e0068f6357940f9640034f448edd8167d,
  0x2f0068f6357940f9640036d901b2b67da9,
  0x3000347b1abca07cb2009fcf372bf7770d,
  0x31001a3d8d5e503e59008591a9cda738b4,
  0x32001a3d8d5e503e59008f0945a5ff3c90,
  0x33001a3d8d5e503e5900963d4aedf05953,
  0x34001a3d8d5e503e59008cb886e2c0c888,
  0x350079aefecc61a6f2000984c40b2f90cb,
  0x36003cd77f6630d37900465c4371606444,
  0x37006005a11ee1059b00232e21b8b03222,
  0x3800719cb1fb391eac00119710dc581911,
  0x39006eb7c3872b0da200119710dc581911,
  0x3a007db82534f5eb1500119710dc581911,
  0x3b007c6ccd9daf4d4600119710dc581911,
  0x3c0047a79b08a702130057f3544db87d55,
  0x3d004fcd77ab2fbfb400a7c0cbf8e83d09,
  0x3e0027e6bbd597dfda00a7c0cbf8e83d09,
  0x3f001fc0df330f22390087ffecc5d91ad0,
  0x400063c0d595fbafa10043fff662ec8d68,
  0x410063c0d595fbafa10021fffb317646b4,
  0x420074c0d32eb6d2fb0010fffd98bb235a,
  0x430041c0da648568ed0096c0ce602d19af,
  0x44006c40d46259414e002a7ff9fdd3d861,
  0x450036206a312ca0a70096c0ce602d19af,
  0x460077e14495b20994001edf89ca7b101b,
  0x47003bf0a24ad904ca0096c0ce602d19af,
  0x48001df851256c82650096c0ce602d19af,
  0x49003b0969a5ca7714005ad02c155414e5,
  0x4a007854e0e839506f005ad02c155414e5,
  0x4b007854e0e839506f006992867ec6b2aa,
  0x4c007854e0e839506f0034c9433f635955,
  0x4d007e95074ea06e2e0034c9433f635955,
  0x4e007413c6e6b3906c0034c9433f635955,
  0x4f006ed326b2bd218b0034c9433f635955,
  0x50003a09e37359c8360093da89563d2e3d,
  0x51001d04f1b9ace41b0093da89563d2e3d,
  0x52001d04f1b9ace41b009279a0fb4ed162,
  0x530038a8fb186b6b5b00586fbd87f5092c,
  0x540064e0d9dc65eff1002c37dec3fa8496,
  0x55007afcc93e63323c00161bef61fd424b,
  0x56007fd232c5295fff00161bef61fd424b,
  0x5700539a54012edb6900c22600eb2126e0,
  0x5800539a54012edb690061130075909370,
  0x5900539a54012edb69003089803ac849b8,
  0x5a00539a54012edb69004b7ad9238bb9c6,
  0x5b00539a54012edb69007957c092f4b84c,
  0x5c00539a54012edb69003cabe0497a5c26,
  0x5d0016ee73b7b47f43008ed637697451e9,
  0x5e0016ee73b7b47f430080bf3cfffd671c,
  0x5f00574e1237b332d100405f9e7ffeb38e,
  0x6000777de177b28c9800202fcf3fff59c7,
  0x610016ee73b7b47f43008a0098884841a0,
  0x620072dd33b38d1f56005beebffbd8a013,
  0x6300396e99d9c68fab005beebffbd8a013,
  0x6400396e99d9c68fab00ac80beaa5a5208,
  0x6500396e99d9c68fab008faef92ef3b8af,
  0x6600396e99d9c68fab009dfd635e23b3d8,
  0x67006459d867568126001cd1c57b669959,
  0x6800322cec33ab4093004efeb1af11d9ec,
  0x690059ac450b342d8900277f58d788ecf6,
  0x6a003cda7f8fcd94300044511e52ef864f,
  0x6b001e6d3fc7e6ca180062be5e1ad65067,
  0x6c0071f4fdfec9b5730062be5e1ad65067,
  0x6d006a59ae0cd002ed0062be5e1ad65067,
  0x6e0079904df0c367f9005387be36e2eb5b,
  0x6f00668c0613d329aa005387be36e2eb5b,
  0x700033460309e994d50086cdc140cc8030,
  0x710079904df0c367f9000d3d7350091837,
  0x720079904df0c367f9004366e0a0664018,
  0x730079904df0c367f90021b3705033200c,
  0x7400664df100d227290021b3705033200c,
  0x75007727a928ebb72f0010d9b828199006,
  0x76007f94853cf87f3200086cdc140cc803,
  0x77007ac4472ad5b7ae00086cdc140cc803,
  0x7800617db2eeaf5fa5002a204c643fe80f,
  0x79006fef4c0db78be9002a204c643fe80f,
  0x7a007728189d3ba20b002a204c643fe80f,
  0x7b006fef4c0db78be900315918f3c3fe31,
  0x7c0050a43280bdc50d00315918f3c3fe31,
  0x7d0050a43280bdc50d0040fea5ba40e19f,
  0x7e007f94d8d4346f5700315918f3c3fe31,
  0x7f005876f8e3fc36c400315918f3c3fe31,
  0x80002c3b7c71fe1b620089d011d7c034f5,
  0x8100161dbe38ff0db10089d011d7c034f5,
  0x82006e94b71cfb447500315918f3c3fe31,
  0x83006e94b71cfb4475004ff6e8085fa153,
  0x84005f45cf92ad72e4004ff6e8085fa153,
  0x85000f4ee78a4dd191008b9527fab33bfe,
  0x86000f4ee78a4dd191008306322690e443,
  0x87007717437758cf9d0067c85bed0afe0c,
  0x88004c8a85b38517d500492a8cd86f5aea,
  0x8900711fcc1fbcc54a002495466c37ad75,
  0x8a005d252c7c16101a002495466c37ad75,
  0x8b002e92963e0b080d0081ba72e84dbd8f,
  0x8c007b1d1bf1901fe2002495466c37ad75,
  0x8d006223d464ffbd66002495466c37ad75,
  0x8e003111ea327fdeb30086b91ad1376adb,
  0x8f003d8e8df8c80ff1007a3c770aef399d,
  0x90005be58281dba4c700d621f98ccade64,
  0x91005be58281dba4c700c6f67f484113f9,
  0x92002e6313b43e4586007a3c770aef399d,
  0x9300173189da1f22c300916e00e50e5c60,
  0x94005fe88a4ca650f30048b70072872e30,
  0x95005fe88a4ca650f300245b8039439718,
  0x960052be93ed81dc9e0031857698680b6d,
  0x9700295f49f6c0ee4f005ae4c08f28f9bc,
  0x980056d1aa3e556b2d002d726047947cde,
  0x990056d1aa3e556b2d0035988ce93b99fc,
  0x9a0056d1aa3e556b2d00719df0b2f3382b,
  0x9b006437cd78a451ac00719df0b2f3382b,
  0x9c007deb28fa946278000d66233a4ee67f,
  0x9d00748e216685cb38000d66233a4ee67f,
  0x9e007d45c0d6cd6617000d66233a4ee67f,
  0x9f004555f2088e264b009812074b6b3315,
  0xa00076e5634b897108000d66233a4ee67f,
  0xa1007e7161c94f38ff000d66233a4ee67f,
  0xa2005351e5bc1df63e00b409eeb28ad2fb,
  0xa30079d275a9ce004c000d66233a4ee67f,
  0xa4007fe7eaf87180a1000d66233a4ee67f,
  0xa50061734d8dfe008e006ed970c84ce70d,
  0xa60061734d8dfe008e0042feb0238a807b,
  0xa70030b9a6c6ff004700a471fdb1888109,
  0xa80030b9a6c6ff0047009b4f790342c0ef,
  0xa90030b9a6c6ff00470066048fe520e09b,
  0xaa005ce20b36db20810039dc2b7544c061,
  0xab004b5f1b560ff0710039dc2b7544c061,
  0xac004b5f1b560ff07100429da365aa5869,
  0xad005ce20b36db208100311ab384df2859,
  0xae005ce20b36db20810046fe5f5ddd246d,
  0xaf0051f0354a5c22770046fe5f5ddd246d,
  0xb00051f0354a5c227700bf177240997133,
  0xb10051f0354a5c22770036939e7b1ea75e,
  0xb20051f0354a5c2277006d3a0487eb7626,
  0xb30051f0354a5c227700369d0243f5bb13,
  0xb400000963c8d713b500800165c290edcd,
  0xb50044469bc728eec500443d37fe51db10,
  0xb60044469bc728eec500aaabd38d7acb12,
  0xb700666e9b8f28f002002215383651d9d3,
  0xb80033374dc7947801008883d3c57ac9d5,
  0xb90033374dc7947801005ddd90c687a0eb,
  0xba0033374dc794780100a20801332b5491,
  0xbb0033374dc7947801009dd6f544f45e4a,
  0xbc0033374dc7947801008222c86a0ea726,
  0xbd007448b1fc9bcb940041116435075393,
  0xbe007df1bc7bd7b0df0041116435075393,
  0xbf005f8190586f82390041116435075393,
  0xc00050497a46bb6ae60041116435075393,
  0xc1000f381611b41753008eb5ec34b389fb,
  0xc2000f381611b41753008bd7596a042df3,
  0xc3005cbfcdcf9039f6004d87b7bddc22a3,
  0xc4005cbfcdcf9039f600ca26fb162c3943,
  0xc5002e5fe6e7c81cfb009bc7142e641c48,
  0xc6002e5fe6e7c81cfb00aaa357e6c2481a,
  0xc7002e5fe6e7c81cfb0083b192db294108,
  0xc800642defabbf4fdf001f83a32f69f129,
  0xc900642defabbf4fdf0041d8c96d94a084,
  0xca00642defabbf4fdf0020ec64b6ca5042,
  0xcb006596b1331faef8001f83a32f69f129,
  0xcc0032cb58998fd77c00524efbc8f9c8a5,
  0xcd006bb4a815c1b46300524efbc8f9c8a5,
  0xce007efc5d7fe79ab6001f83a32f69f129,
  0xcf005f01d1ef5dbe8400dd87470e256e31,
  0xd0002f80e8f7aedf4200ae065e16768eef,
  0xd1002f80e8f7aedf42009d922fed11b5cd,
  0xd20017c0747bd76fa10085d1bb713a462c,
  0xd30017c0747bd76fa1008a2a3b2c2371f9,
  0xd40017c0747bd76fa100807640cbac500f,
  0xd50017c0747bd76fa1008f85b5d1b16816,
  0xd60017c0747bd76fa1008f04385c5f02ee,
  0xd70017c0747bd76fa1008ec379a1b5d05a,
  0xd80076c2466b352e2500edc54b91138ede,
  0xd90076c2466b352e2500eda4ec33bef594,
  0xda0076c2466b352e2500ed94bc8514a8ef,
  0xdb0076b216bc8ae18000edb51be2694239,
  0xdc003b590b5e4570c000b25c108423d179,
  0xdd001dac85af22b8600094af8ad5011919,
  0xde000ed642d7915c300085d947fd6fbce9,
  0xdf004a2f4e35d6ccf000c132535bb52da9,
  0xe0002517a71aeb6678009c1aac40c9c731,
  0xe100128bd38d75b33c00898ed8b35413f5,
  0xe2005cbb21c34c802c002cd3b6f00793c9,
  0xe3002e5d90e1a6401600898ed8b35413f5,
  0xe400172ec870d3200b00898ed8b35413f5,
  0xe50073e9ea341fa0370044027f60dab3d4,
  0xe60073e9ea341fa0370022013fb06d59ea,
  0xe70073e9ea341fa0370011009fd836acf5,
  0xe800427545062b26960095eb29e48cfa21,
  0xe9006f423b2410f87d0011009fd836acf5,
  0xea0073234d06c7d9980011009fd836acf5,
  0xeb004a92465b9a99c1005b92e633d146b6,
  0xec00179066d2f692e2006c93860c07f3ab,
  0xed00785bb975833d1c006c93860c07f3ab,
  0xee003c2ddcbac19e8e00a8c162c6c99239,
  0xef003c2ddcbac19e8e00b5ce71db9e0b03,
  0xf0001e16ee5d60cf470097b7837e3d3bbc,
  0xf1001e16ee5d60cf470088099e79e03c6c,
  0xf2001e16ee5d60cf47008032abf7b1bcc4,
  0xf300526dd895f3ee2d004404cf3cf01e36,
  0xf400747040346bfd48002202679e780f1b,
  0xf5003a38201a35fea4005c3a87b8ae0dbf,
  0xf6001835b87bbdef890091d64d9c9a5bfe,
  0xf700795697c5c90d11006120df4a0b1d88,
  0xf800795697c5c90d110030906fa5058ec4,
  0xf900790c9a6ab5adad00185ab729479f3b,
  0xfa00610e5ff34645af00da77770fd42a99,
  0xfb00610e5ff34645af003cb48b8e46f275,
  0xfc00610e5ff34645af004ee175c0c69c12,
  0xfd00122cea327fa99d008bf27e00e5c5c4,
  0xfe00122cea327fa99d008eace7ca718956,
  0xff006bb0484a3817e50059835e17b86e48,
  0x10000122cea327fa99d008a95491c1fe3fb,
  0x10100122cea327fa99d0084e7d83ecec3a3,
  0x10200122cea327fa99d0082111fd0263377,
  0x103005ae092fc7e5011005db74b6b26e03d,
  0x104005c4bef33d2982700ba033a9ef97864,
  0x105005c4bef33d29827005d019d4f7cbc32,
  0x106005c4bef33d29827002e80cea7be5e19,
  0x10700597536c52a07fb002e80cea7be5e19,
  0x10800727bd15e329123002e80cea7be5e19,
  0x109007eff1eaab6d5b7002e80cea7be5e19,
  0x10a007eff1eaab6d5b7006984ea9c0100c6,
  0x10b007eff1eaab6d5b70034c2754e008063,
  0x10c0059e0c9fc5bab0d0034c2754e008063,
  0x10d00157a340eb5d4f1008ea33f4a5c2b70,
  0x10e005ccbd3b3e3eaa90047519fa52e15b8,
  0x10f005ccbd3b3e3eaa90023a8cfd2970adc,
  0x110006ea03b9d2f70170011d467e94b856e,
  0x111007d376c32d8ae230011d467e94b856e,
  0x112007d376c32d8ae230008ea33f4a5c2b7,
  0x11300788e07cfa1c8b70008ea33f4a5c2b7,
  0x1140054e537fd0abddb002c9303c73ccd93,
  0x115006d4f21a960934a002c9303c73ccd93,
  0x11600633a949bed1738002c9303c73ccd93,
  0x117000a148d0d737c120084261d6b20a73d,
  0x11800050a4686b9be090084261d6b20a73d,
  0x1190076fef33c2e9efd0071f4acb574e0f4,
  0x11a0076fef33c2e9efd0038fa565aba707a,
  0x11b00430ee3682dec8c006cea662ebb22eb,
  0x11c00218771b416f646008e71d7e2d21931,
  0x11d0010c3b8da0b7b23008e71d7e2d21931,
  0x11e0053d29c423967af006cea662ebb22eb,
  0x11f00605e81387a454d00cd48e767356838,
  0x12000605e81387a454d0066a473b39ab41c,
  0x121004746b74bf88a110066a473b39ab41c,
  0x122007a98f125c5e41f00335239d9cd5a0e,
  0x123007a98f125c5e41f0019a91cece6ad07,
  0x124007d7340e323a2a10019a91cece6ad07,
  0x1250063ca23f63cf59a001c836caa446b89,
  0x1260031e511fb1e7acd00804d90a0816123,
  0x127005919514dcfedf80027343f52b1732b,
  0x128000ab0d2a86d07a20083e04caae9120b,
  0x12900055869543683d10083e04caae9120b,
  0x12a006f5fa5a143e976006a073c4d0d65a5,
  0x12b0074b80ef57a6d470059fe005069da32,
  0x12c0074b80ef57a6d47002cff002834ed19,
  0x12d0074b80ef57a6d470050db878ed7ad30,
  0x12e0023dc8766a2c017009941f1fbc3214f,
  0x12f0023dc8766a2c01700826bc417d5b0ca,
  0x1300023dc8766a2c01700651269728d987c,
  0x131005665bc1fe98c5500328934b946cc3e,
  0x132005665bc1fe98c55004fe28f5e8ee48c,
  0x133005665bc1fe98c55007e5703cf30fe9b,
  0x134006a5e5ff78d4578007e5703cf30fe9b,
  0x1350070726f25542b790013f8a3d7a3b923,
  0x136007e1f7505671db70013f8a3d7a3b923,
  0x1370070fd541dccddb30013f8a3d7a3b923,
  0x13800490c0c6e856b6d00ace73fa4b8091c,
  0x13900490c0c6e856b6d0056739fd25c048e,
  0x13a007445dc57b36db4002b39cfe92e0247,
  0x13b00655cbe1507b921002b39cfe92e0247,
  0x13c00655cbe1507b92100d8210f8de60b63,
  0x13d00655cbe1507b92100396228bc6f2921,
  0x13e004f5f7368bb712100396228bc6f2921,
  0x13f006df2755d7d680000396228bc6f2921,
  0x14000705b636b2ddd2100396228bc6f2921,
  0x1410054dec613ce832100396228bc6f2921,
  0x14200705b636b2ddd21005747b4217ef842,
  0x14300705b636b2ddd21002ba3da10bf7c21,
  0x144004dff9ebdf6aca100c7a3178cacd563,
  0x145004dff9ebdf6aca1003cd1bc675b1461,
  0x14600705b636b2ddd21001a75f7ba23e3e1,
  0x14700705b636b2ddd21004568ad92a8e081,
  0x148005ae2087eeb5ed1004568ad92a8e081,
  0x149006b5ec69d4c7790004568ad92a8e081,
  0x14a007b1810e14f1c49004568ad92a8e081,
  0x14b0060405f39fbfe65004568ad92a8e081,
  0x14c005ba57c5949d2d7002a90fbeb55c29d,
  0x14d006dac380da58d57002a90fbeb55c29d,
  0x14e006dac380da58d57004c1e99fc7da7fa,
  0x14f006dac380da58d5700260f4cfe3ed3fd,
  0x15000479ceb0f66b95a00be4c80f73a23f1,
  0x1510023ce7587b35cad009a7e0b6f86c744,
  0x15200710d7b3f76c04f004d3f05b7c363a2,
  0x1530023ce7587b35cad008795e5e0e9696f,
  0x1540023ce7587b35cad009d4f18c3b51c68,
  0x1550023ce7587b35cad00727601e98deae1,
  0x156005d561df2326c53002ad916da273187,
  0x157006ef0b140540074002ad916da273187,
  0x15800377858a02a003a0099c9c81a7b31fb,
  0x159001bbc2c5015001d0099c9c81a7b31fb,
  0x15a0044179a662cceed004695432a3c31a4,
  0x15b0067623bfb4ae7bf00234aa1951e18d2,
  0x15c0079078cc5d9f4280011a550ca8f0c69,
  0x15d0067623bfb4ae7bf00583a93f4cb3e0d,
  0x15e005fce67f80b12e600583a93f4cb3e0d,
  0x15f002fe733fc058973008821c7f0d0c780,
  0x160002fe733fc0589730099b9abdfd6fd8f,
  0x161002fe733fc0589730094b7a3e9f3ccf4,
  0x162002fe733fc05897300aa2a39ed04f960,
  0x163002fe733fc0589730084fc50f2880623,
  0x164006a87b2f993a91c001a749df8f45d07,
  0x165003543d97cc9d48e0084fc50f2880623,
  0x166001aa1ecbe64ea470084fc50f2880623,
  0x16700501315009f4c150035168ab759474e,
  0x168006a9e5a5c4befbc001a8b455baca3a7,
  0x169004fda7289d29b8500ba402a6f51dab1,
  0x16a004fda7289d29b850034dde8408c96be,
  0x16b004fda7289d29b8500ba23d933eb8269,
  0x16c004fda7289d29b85003524b3550c7372,
  0x16d004fda7289d29b85006a6ccc3458d53e,
  0x16e004fda7289d29b850035014dcacc8518,
  0x16f004fda7289d29b8500ba358bf90b7996,
  0x170004fda7289d29b8500acf53886585850,
  0x1710078fd64486b4edb000d405372b32146,
  0x172007f9d8e01c4df7e0006a029b95990a3,
  0x173007b703e8508857a0006a029b95990a3,
  0x174007ee5290546cc440006a029b95990a3,
  0x175007b140c06c97bdd0006a029b95990a3,
  0x176007c7b9264379bfb0006a029b95990a3,
  0x177007d2f5592eeac0a0006a029b95990a3,
  0x178007a6048d8126bce0006a029b95990a3,
  0x179007f71c5a988dc450006a029b95990a3,
  0x17a007eaa6f35974c2f0006a029b95990a3,
  0x17b006429c8503109a3002120d09ebfd32f,
  0x17c0042a54c77786e690063c61d16384198,
  0x17d0074885b02948f350031e30e8b1c20cc,
  0x17e0042a54c77786e6900b6c9fc40143593,
  0x17f0042a54c77786e6900bf5cf0d33ec067,
  0x1800042a54c77786e69003e5bd22de328ff,
  0x1810040808f52adcbb400bf5cf0d33ec067,
  0x1820044ca099c43111e007edc618090f4b3,
  0x18300226504ce21888f007edc618090f4b3,
  0x1840050a0b327593ea100cf7d14a7ea3354,
  0x185007305b7f57ac730003a1257e44de395,
  0x186003982dbfabd639800ad180fd9c8aac5,
  0x187001cc16dfd5eb1cc009056a1dc69f8f9,
  0x1880072763c0bea4733001d50e9e6ef31c9,
  0x1890047e392f96cbc7e00ad180fd9c8aac5,
  0x18a0023f1c97cb65e3f008926465d124c86,
  0x18b0023f1c97cb65e3f006884ecab3f8482,
  0x18c0072763c0bea47330020a159b1d2c804,
  0x18d0072763c0bea4733001050acd8e96402,
  0x18e007a9e92785ef934000828566c74b201,
  0x18f0072763c0bea47330028c9b01e477a05,
  0x190004d9ff61518e09c007669a633605aa1,
  0x1910026cffb0a8c704e007669a633605aa1,
  0x1920024d645f6d166970078635b471b6458,
  0x193006107f39a5f18c3003c31ada38db22c,
  0x194007f20ca6c25f1d9001e18d6d1c6d916,
  0x195007bfdb02e894ec7001e18d6d1c6d916,
  0x196007bfdb02e894ec7000f0c6b68e36c8b,
  0x1970072aa500660a34a000f0c6b68e36c8b,
  0x198007586d5a6be03d1000f0c6b68e36c8b,
  0x199004861936c13be30004b3e190c711eb7,
  0x19a006f6ee2c27afdcf004b3e190c711eb7,
  0x19b006f6ee2c27afdcf005d567de7760e43,
  0x19c005a79f84718adbc003925b4316c2f2b,
  0x19d002d3cfc238c56de006662b054f88609,
  0x19e007d012e66beb178006662b054f88609,
  0x19f0071187658ded92b003925b4316c2f2b,
  0x1a000551f154525842b003925b4316c2f2b,
  0x1a100551f154525842b00472264bb48d9ab,
  0x1a2004e20bd00372eeb00472264bb48d9ab,
  0x1a300551f154525842b0032275bec7dd9eb,
  0x1a400551f154525842b0043a33898d1af0b,
  0x1a5004c6126eefb999b0043a33898d1af0b,
  0x1a600669af1f179594b003ae54a42a7c47b,
  0x1a70050c01e1a108ee3003ae54a42a7c47b,
  0x1a80050c01e1a108ee30045d2b42e5c29af,
  0x1a90071885bdd2dbe7f003ae54a42a7c47b,
  0x1aa005636d30feac17d003ae54a42a7c47b,
  0x1ab005636d30feac17d00488e0ea94942fc,
  0x1ac007a7dda648f62fb0024470754a4a17e,
  0x1ad005636d30feac17d00b56324a7372776,
  0x1ae005636d30feac17d005ab192539b93bb,
  0x1af00587432b1c32a9c005ab192539b93bb,
  0x1b0005636d30feac17d00b7a084490f9095,
  0x1b1005636d30feac17d0030b4d89c92678c,
  0x1b2006e913f5e33f54300185a6c4e4933c6,
  0x1b3002581fa735859f1009f4617fac65ccf,
  0x1b400626409370f5b60003ce20ec3b7016f,
  0x1b5003132049b87adb0009f4617fac65ccf,
  0x1b6001899024dc3d6d80086ad15ad0285f7,
  0x1b7007afd0b84d332380024490c75f32a97,
  0x1b8003d7e85c269991c009f4617fac65ccf,
  0x1b9001ebf42e134cc8e008086d519919041,
  0x1ba0037f4bc2dab3b130061c792385cc3b3,
  0x1bb004cde273303ff6300aea5b96b60c316,
  0x1bc004cde273303ff63005752dcb5b0618b,
  0x1bd007a5e2dde02d84e005752dcb5b0618b,
  0x1be003d2f16ef016c27005752dcb5b0618b,
  0x1bf004a40f9d258e6d9005752dcb5b0618b,
  0x1c00050c9eb4404a432005752dcb5b0618b,
  0x1c1003d2f16ef016c27005ddbce275c1ee4,
  0x1c2006c1cfe02af7b99002eede713ae0f72,
  0x1c3006c1cfe02af7b99001776f389d707b9,
  0x1c4006c1cfe02af7b99007552c1b133269d,
  0x1c50070b7dfd9f1511b00e60aa18b2477b8,
  0x1c60070b7dfd9f1511b00730550c5923bdc,
  0x1c70067821c2b6da61700730550c5923bdc,
  0x1c80067821c2b6da617003982a862c91dee,
  0x1c90067821c2b6da617001cc15431648ef7,
  0x1ca007ba46091323875001cc15431648ef7,
  0x1cb005ee30c5fcda97e0030e39897292155,
  0x1cc002f71862fe6d4bf008fc6a4f6f6cad3,
  0x1cd005f9c15936ecfc900302a8f6387fb0a,
  0x1ce007f5a2847d36b330000b90933a1264b,
  0x1cf0076f8541191a7030077b15d4532cd4e,
  0x1d00076f8541191a703003bd8aea29966a7,
  0x1d1007fede460ce8dd40000b90933a1264b,
  0x1d2007f921befcc70b20000b90933a1264b,
  0x1d3004aa097fe5776be0095fa39305013c7,
  0x1d40025504bff2bbb5f0095fa39305013c7,
  0x1d5006e7ed19640e5870026095532cce1aa,
  0x1d6006e7ed19640e587001304aa996670d5,
  0x1d70066cb134aa08cd800e09ad12ea78a85,
  0x1d80053c668b13a1c0300b2ddbdb03a502c,
  0x1d90053c668b13a1c0300ad354789574419,
  0x1da0053c668b13a1c03002cb76f6c0e940b,
  0x1db0053c668b13a1c030038085bb9d4ac31,
  0x1dc0053c668b13a1c030045e7623587641a,
  0x1dd0053c668b13a1c030076ba19cbfdce10,
  0x1de0053c668b13a1c03003b5d0ce5fee708,
  0x1df007a0ecaf82808e7003b5d0ce5fee708,
  0x1e0007a0ecaf82808e7001dae8672ff7384,
  0x1e1007a0ecaf82808e7000ed743397fb9c2,
  0x1e2006b3787bea84f25004a34501f7ea0ca,
  0x1e3006b3787bea84f2500251a280fbf5065,
  0x1e4006d42fff6f3202a00251a280fbf5065,
  0x1e5006b3787bea84f25002725a0480a216a,
  0x1e6007eca57e2ad5fda001392d0240510b5,
  0x1e70052f7fc155bc0a200b982c84ebc91f9,
  0x1e800297bfe0aade051009006ca440eb1a8,
  0x1e90068e129fc04903e00668acc3960d157,
  0x1ea00347094fe02481f009afb6137631976,
  0x1eb00347094fe02481f004d7db09bb18cbb,
  0x1ec004fd40e5e554ba200668acc3960d157,
  0x1ed0027ea072f2aa5d100668acc3960d157,
  0x1ee00473a69b445bb9400adc535eda68ceb,
  0x1ef003083abd93a35df00668acc3960d157,
  0x1f0004b873c094d839b00668acc3960d157,
  0x1f10059090421572a7900bf93d05ab7fbd0,
  0x1f2003083abd93a35df00740c94516a7835,
  0x1f3005248201552570a00c654b466bccf3f,
  0x1f4002924100aa92b85009d30a45c13a3ba,
  0x1f5002924100aa92b850077bc6238b2fd62,
  0x1f60003afcde748852d0080486c3c5aece8,
  0x1f7006502412702aa36006152733fba2509,
  0x1f8003281209381551b0093d393d33b7a24,
  0x1f9003630ee7ac9da48009023c5ebf2f4f7,
  0x1fa001b18773d64ed24009023c5ebf2f4f7,
  0x1fb000d8c3b9eb276920082978a4d407e65,
  0x1fc0043bd2a197c50da009023c5ebf2f4f7,
  0x1fd0021de950cbe286d009023c5ebf2f4f7,
  0x1fe007adfc28916b71f0059012d7c588eb2,
  0x1ff007adfc28916b71f002c8096be2c4759]

set_option maxRecDepth 100000 in
theorem dCerts0_ok : checkFrom (-1076) dCheck 0 dCerts0 = true := by decide +kernel

def dCerts1 : List Nat := [
  0x200007cd852818a82c8002c8096be2c4759,
  0x201006aecbffef188bd002c8096be2c4759,
  0x202007837421cbb2f64002c8096be2c4759,
  0x203006f8dd063c0dc21002c8096be2c4759,
  0x204007a87ca4f22d916002c8096be2c4759,
  0x2050069c47be5bdb3e4002c8096be2c4759,
  0x2060069c47be5bdb3e400de82f1b6dd64bd,
  0x2070034e23df2ded9f200a9a0b3c3fe8acb,
  0x208001a711ef96f6cf9008f2f94ca8f1dd2,
  0x209001a711ef96f6cf90096eb275195d5d4,
  0x20a00222cb1807624fb006208e95eb6fbe2,
  0x20b005331262fd1a2ec00310474af5b7df1,
  0x20c005a9d07c7444f6700310474af5b7df1,
  0x20d006df1f618d51b6c00310474af5b7df1,
  0x20e0067fd6fbbc60ba700310474af5b7df1,
  0x20f007d8566e4ec42bd00310474af5b7df1,
  0x210005869feefaee45600310474af5b7df1,
  0x211005d39742732f01c00310474af5b7df1,
  0x212005fa12ec2f4f5ff00310474af5b7df1,
  0x213004852d1b92839f800c1aa1821abf1e1,
  0x214007487d130ffac2300310474af5b7df1,
  0x2150052c622f02d950a00310474af5b7df1,
  0x216005a67862772487600310474af5b7df1,
  0x217004b24bfb8e8e19e0038a5d7e6a0315d,
  0x2180025925fdc7470cf005e3837c314a22c,
  0x2190054ae7bbdfec1e5002f1c1be18a5116,
  0x21a0025925fdc7470cf00a067cbaecab3d0,
  0x21b0025925fdc7470cf0075c645b3d9cab7,
  0x21c004dac52c8271dc30075c645b3d9cab7,
  0x21d0061b94c3e00743d00d77f91f1da3ef4,
  0x21e004dac52c8271dc300b1ed321565ce25,
  0x21f004dac52c8271dc300cd791536ed93b7,
  0x220004dac52c8271dc3003fe66137633afa,
  0x221000dc5f190c3e2c9008c72a1bafda2ad,
  0x222000dc5f190c3e2c90084340fe8f04ddf,
  0x223006488e3de61dde60056c2f24d9dfb1d,
  0x224006488e3de61dde6001fab2c0a8e6ff9,
  0x22500324471ef30eef30084340fe8f04ddf,
  0x22600324471ef30eef3008d80b2db418d5c,
  0x227007904cb5cd1b5a10046c0596da0c6ae,
  0x22800324471ef30eef30098aff76760259a,
  0x22900324471ef30eef300b0e0df9211f0b3,
  0x22a00324471ef30eef3007192a8c0a16fd3,
  0x22b00577f1efc224bf9004c57fbb3b012cd,
  0x22c0051eb8d57e92f63004c57fbb3b012cd,
  0x22d0051eb8d57e92f63004f21c485cca118,
  0x22e005a48e7ce3eda44004c57fbb3b012cd,
  0x22f002d2473e71f6d2200797c6f9acf7fef,
  0x23000169239f38fb69100797c6f9acf7fef,
  0x23100480754c72f9b4000c183c461ff1b2f,
  0x23200169239f38fb69100866e646050e696,
  0x23300169239f38fb6910086ede00ad796fe,
  0x234005a0929f8fb8210004376f0056bcb7f,
  0x23500169239f38fb69100862ea68b0d8e62,
  0x23600169239f38fb6910086ce012035eae4,
  0x23700708b74773a62940059f93a83aaac03,
  0x2380070db21c1ce90d500436700901af572,
  0x2390070db21c1ce90d50021b380480d7ab9,
  0x23a006afad14cfb80800021b380480d7ab9,
  0x23b00357d68a67dc040005730e8ee8b3af9,
  0x23c0049475104ee05c70078e4693698b5b2,
  0x23d0049475104ee05c7003c72349b4c5ad9,
  0x23e007f4ef76b698b29003c72349b4c5ad9,
  0x23f00561c6d6e8fb0b5003607a6667b8562,
  0x24000712040a1cd7366001b03d3333dc2b1,
  0x241006e97c6b7623f15001b03d3333dc2b1,
  0x2420038902050e6b9b3008713200034cd75,
  0x2430038902050e6b9b3005fd1a0288dc394,
  0x244006878f0652d9b7d002fe8d01446e1ca,
  0x245006878f0652d9b7d0017f4680a2370e5,
  0x2460008a7503c9fd7e90077c60832b13479,
  0x247004036ac37a8863100b7fcb46a59baaa,
  0x248004036ac37a88631005bfe5a352cdd55,
  0x249004036ac37a88631008ae665f395b3b4,
  0x24a004036ac37a886310085a9df3173600b,
  0x24b004036ac37a8863100a326f1ec36794f,
  0x24c004036ac37a8863100ad9fff707b20a1,
  0x24d004036ac37a8863100b722020bba599a,
  0x24e004036ac37a88631009bc7ad3d85b2fe,
  0x24f004036ac37a886310088c3a80707410c,
  0x250004036ac37a88631008498803b2c26b7,
  0x251004036ac37a8863100a29e427112dca5,
  0x252004036ac37a8863100716a77545db16b,
  0x253004036ac37a8863100b5cc4b57e151f1,
  0x254004036ac37a8863100bb3827ff6d7242,
  0x255004036ac37a88631009dd2c0375f3f52,
  0x256004036ac37a886310092fb06e846feb0,
  0x257004036ac37a886310089b42fabcc0589,
  0x258004036ac37a8863100a52c1a2962cc0e,
  0x259004036ac37a8863100b7b9c8a258be5c,
  0x25a004036ac37a88631009c139088d4e55f,
  0x25b004036ac37a8863100ae5bca97e73bf9,
  0x25c004036ac37a886310077493b67c7e115,
  0x25d0009241d07892b4d00811afb780a11a4,
  0x25e0009241d07892b4d00808a48f0c537ed,
  0x25f004dfb5003b05cea0044d732fc27319d,
  0x2600009241d07892b4d0085f5633f711426,
  0x2610009241d07892b4d0082f77cd478b92e,
  0x26200660c32886109cb005ce81580d7de7e,
  0x263002db49125add881005ce81580d7de7e,
  0x264005c289be619c7c0002e740ac06bef3f,
  0x265005c8858b378d31f002e740ac06bef3f,
  0x2660073f23c7a5e506e002e740ac06bef3f,
  0x267005c8858b378d31f0045ddee87516c8e,
  0x268007f774ff72189660022eef743a8b647,
  0x2690062aa9f3f397afa0022eef743a8b647,
  0x26a007d989ff446508b000622468bc0a7db,
  0x26b004e22005784cbe900544446e34573c4,
  0x26c00784423c92785cb002a222371a2b9e2,
  0x26d00784423c92785cb005a668d6f061b9f,
  0x26e00784423c92785cb006955589c16d0b5,
  0x26f0070ccbe329f2b40006955589c16d0b5,
  0x2700038665f194f95a000a1bbb7b5666655,
  0x27100784423c92785cb00297793ec3ee08a,
  0x27200784423c92785cb0014bbc9f61f7045,
  0x27300467ff6dfa37b0800a1bbb7b5666655,
  0x274004ecc8fdce8a541005b3bc0d5c2eb4d,
  0x275005504285955c847005b3bc0d5c2eb4d,
  0x27600581ff4978c59ca00b35bb56d4f4517,
  0x277004bb0c39eb213be005b3bc0d5c2eb4d,
  0x2780025d861cf5909df005b3bc0d5c2eb4d,
  0x27900408a11528dfa96009bc5d22850e5e3,
  0x27a00204508a946fd4b009bc5d22850e5e3,
  0x27b0005935926120c940085786d9008b393,
  0x27c0002c9ac9309064a0082aec0fcffad49,
  0x27d000164d649848325008149eab37b2a24,
  0x27e0006f82f6f968fb9008413974684306e,
  0x27f004ffa2a826f37a9004901fb12d8a7f0,
  0x280004ffa2a826f37a900747b280bdb8ba1,
  0x281004ffa2a826f37a900b684f3af1da3d8,
  0x282004ffa2a826f37a900ab3ca459fe0995,
  0x283004ffa2a826f37a9007d9b676e36a09f,
  0x2840066cac8f852ec2400e4663066898cc3,
  0x285004ffa2a826f37a900c20d42cfe1be10,
  0x286004ffa2a826f37a900b100cbea6016b1,
  0x287004ffa2a826f37a900308350b3f86f84,
  0x288006f710450e5ffce00418fc7997a16e3,
  0x2890037b8822872ffe700b100cbea6016b1,
  0x28a00745ca709698b4c003ca424e0f68b65,
  0x28b0037b8822872ffe700880b31eb77b944,
  0x28c0037b8822872ffe700b3769d46a1dc70,
  0x28d0037b8822872ffe70059bb4ea350ee38,
  0x28e006496297a1b7703002cdda751a8771c,
  0x28f007a4bdf27b08899002202cc7addee51,
  0x290004e2755d1473b7500702a224c2529c6,
  0x291004e2755d1473b7500381511261294e3,
  0x2920064399a7c7be207005a17dda0f08334,
  0x2930064399a7c7be207002d0beed078419a,
  0x294007abf91e4b802d4001685f7683c20cd,
  0x29500763a96826d3c86001685f7683c20cd,
  0x296007eaf3179eb00aa001685f7683c20cd,
  0x297006c63878d6dc1ef001685f7683c20cd,
  0x298006e80ae4b4d32f8001685f7683c20cd,
  0x2990057fab6e311122b00c8988bec3db62c,
  0x29a0057fab6e311122b00bc46fcd92fed41,
  0x29b0057fab6e311122b00322622fb0f6d8b,
  0x29c007dcf4acb12b6cb003e77b20e1d3676,
  0x29d007dcf4acb12b6cb001f3bd9070e9b3b,
  0x29e004e8591e910a90300bc46fcd92fed41,
  0x29f007dcf4acb12b6cb000f2df92c1b28ae,
  0x2a0007dcf4acb12b6cb000796fc960d9457,
  0x2a10042b323b0902591008cfd43f72ddf79,
  0x2a20042b323b090259100aa8b57846f2816,
  0x2a3007dcf4acb12b6cb0067d833d3df0285,
  0x2a40072d3bf4f78dca80067d833d3df0285,
  0x2a5003969dfa7bc6e5400a142137b9b70d9,
  0x2a6007dcf4acb12b6cb002372c8b088ba0e,
  0x2a7007dcf4acb12b6cb0011b96458445d07,
  0x2a80047c45791ab89e900a142137b9b70d9,
  0x2a9006eb239049c9b2b0011b96458445d07,
  0x2aa007561fbb73d932e0011b96458445d07,
  0x2ab005e23c68c2783a500ce00f170936451,
  0x2ac005e23c68c2783a50037ee957235f056,
  0x2ad0078246420a66c6f0011b96458445d07,
  0x2ae006861acecfe1ec9007a1b1145427bd0,
  0x2af006861acecfe1ec9003d0d88a2a13de8,
  0x2b0006861acecfe1ec9006080515329f7f6,
  0x2b1006861acecfe1ec900304028a994fbfb,
  0x2b2006861acecfe1ec9004c50eacb498d62,
  0x2b3006861acecfe1ec900446f8f3175668f,
  0x2b4006861acecfe1ec90056689e0f39c2ac,
  0x2b5006861acecfe1ec9002b344f079ce156,
  0x2b60059dd4a54d5cc91002b344f079ce156,
  0x2b7006f7771d8a43d3c00159a2783ce70ab,
  0x2b800788a2f77bd709f00159a2783ce70ab,
  0x2b90072467a8562d1fb00159a2783ce70ab,
  0x2ba0075bb26cafedbe000159a2783ce70ab,
  0x2bb007bac09f0eabff100159a2783ce70ab,
  0x2bc0073d767c1f979a400159a2783ce70ab,
  0x2bd005e3d403e2b08f9006c02c593083357,
  0x2be00652002e8999e2800d122c87ba1d17f,
  0x2bf00329001744ccf14009e92c70755026b,
  0x2c0005e3d403e2b08f900405586c929f972,
  0x2c1007e6803a2c005b200202ac36494fcb9,
  0x2c2003f3401d16002d9009e92c70755026b,
  0x2c3003f3401d16002d900ae17663dba857b,
  0x2c4005e3d403e2b08f9006ee3646c5a82a2,
  0x2c5005e3d403e2b08f9003771b2362d4151,
  0x2c6004ad7793a2c2525003771b2362d4151,
  0x2c7004ad7793a2c252500ca6101d4b62170,
  0x2c8004ad7793a2c252500b007fa248735dd,
  0x2c9007d6fb9af59ad8100329840752d885c,
  0x2ca00793c1bd8f90fed001a5907b02eeb93,
  0x2cb0064239974c2e95300e2a03a99b4be39,
  0x2cc0064239974c2e953003f3e509278ea73,
  0x2cd0051b0f5039de9e3003f3e509278ea73,
  0x2ce001272a47124ff700083bd2670ea99df,
  0x2cf0009395238927fb80083bd2670ea99df,
  0x2d000049ca91c493fdc0083bd2670ea99df,
  0x2d100170f4d8d6e3f4c00919321c5c65973,
  0x2d2000b87a6c6b71fa600860b7aff0f39cd,
  0x2d30005c3d3635b8fd3008047a79bb3a9fa,
  0x2d4001cd320f0c9cf1f00919321c5c65973,
  0x2d5001cd320f0c9cf1f0090d9633cdbb287,
  0x2d60073a963079c8ff20056d64216d2c0d3,
  0x2d70039d4b183ce47f90090aaf39aa108cc,
  0x2d80056a7d2749817180073d7d2a9d739ad,
  0x2d9002b53e93a4c0b8c009f2bbbe4234539,
  0x2da0015a9f49d2605c6008981c746fd3f73,
  0x2db006c51c711be1cde005e2dde0cb133e7,
  0x2dc003628e388df0e6f009456c195904256,
  0x2dd003628e388df0e6f004a2b60cac8212b,
  0x2de000e23e9050ce8f70072305b4e9a46a3,
  0x2df00402a2229d397cd00b25a7d786dde70,
  0x2e000402a2229d397cd00995760e60a8705,
  0x2e100402a2229d397cd00aceae3b1c2a736,
  0x2e200139382cbb820310090a311a7a8d548,
  0x2e300139382cbb8203100830c1136fccb37,
  0x2e4004b4fca015a75b40037bc4735a25583,
  0x2e5005ee34ccd1295e5005be50b9f8c8ad5,
  0x2e6005ee34ccd1295e5005d642c364f905d,
  0x2e7005e23bc81b11321005d642c364f905d,
  0x2e80060626d63d59b6d005ca49beaee0d99,
  0x2e9005e8384a761d483005ca49beaee0d99,
  0x2ea005e8384a761d483005d94104927f10e,
  0x2eb005e8384a761d483002eca082493f887,
  0x2ec0062415620496257002eca082493f887,
  0x2ed00774fb74702a5f6002eca082493f887,
  0x2ee006a71e3c8154b82002eca082493f887,
  0x2ef004885af226ead6f0050b63cca3a969a,
  0x2f00070e0cd878bf8bc00285b1e651d4b4d,
  0x2f100387066c3c5fc5e0060cb8528e347ab,
  0x2f20068b03fdfc00f91001845d606749a3c,
  0x2f30074d32ae2fa5caf000c22eb033a4d1e,
  0x2f4007ae4a06497833e00061175819d268f,
  0x2f50049953b35860ebd004fa6b0b723354c,
  0x2f60049953b35860ebd00b181c1f31dde45,
  0x2f70049953b35860ebd00c720b9c9d8053e,
  0x2f80049953b35860ebd0063905ce4ec029f,
  0x2f90049953b35860ebd0038526d3777b4ad,
  0x2fa0049953b35860ebd0040f3d4367ee1b5,
  0x2fb0049953b35860ebd00454487b6027839,
  0x2fc005236a2348d3bc5003ca320b6fb4b31,
  0x2fd005236a2348d3bc500476ce175c4437b,
  0x2fe004cd1c1d528bfa000476ce175c4437b,
  0x2ff006dd5c26058a34b00476ce175c4437b,
  0x300007e04637e8617ba002104008b2fe3ab,
  0x301006006324a72ef88002104008b2fe3ab,
  0x30200510719b0695b6f00c31233ec029a89,
  0x30300510719b0695b6f00a51402b7ef7257,
  0x30400510719b0695b6f00cc14a7e495c252,
  0x30500510719b0695b6f00b7116da2b43c98,
  0x306002700a52ca64ffb009010c8760dec9d,
  0x307002700a52ca64ffb005b88b6d15a1e4c,
  0x3080054c50095535f21002dc45b68ad0f26,
  0x309006ba72e49a9e6b40016e22db4568793,
  0x30a007e5cb0c23bf92e0016e22db4568793,
  0x30b006cf2b3c9cb0bbd0016e22db4568793,
  0x30c006faecc27bdd8ce0016e22db4568793,
  0x30d0058cc9e7367513b00726ae485b0a5df,
  0x30e00659bc17c8bfb8d00726ae485b0a5df,
  0x30f006c0353011e50b600de6e3786cef695,
  0x310006c0353011e50b6002005d796dba9cd,
  0x311003601a9808f285b008c092a97f9fa83,
  0x312003601a9808f285b009707138cd3b9ca,
  0x3130040ff927568e7a2008c092a97f9fa83,
  0x31400207fc93ab473d1008c092a97f9fa83,
  0x31500207fc93ab473d10076c443240baafb,
  0x316004ba2062f600f660076c443240baafb,
  0x31700775cb130daa780002b223cf4ab9b95,
  0x3180066d0958d18ef55002b223cf4ab9b95,
  0x31900741ba6358de10a002b223cf4ab9b95,
  0x31a001dd72c4c36a9e0009bfcd82eecb629,
  0x31b000eeb96261b54f0008d114208d16139,
  0x31c000775cb130daa7800859b76f5c3b6c1,
  0x31d00254cf75f44545800859b76f5c3b6c1,
  0x31e0012a67bafa22a2c00859b76f5c3b6c1,
  0x31f0009533dd7d1151600859b76f5c3b6c1,
  0x3200004a99eebe88a8b0080f1d809db2c36,
  0x3210017501a9b8ab4b7008a4515e1ac414c,
  0x3220017501a9b8ab4b70073c2c027eb8a14,
  0x3230051317aaf8079c10039e16013f5c50a,
  0x3240074908509b5879300229145786b1053,
  0x325006e222ab97b5c4600229145786b1053,
  0x326003711155cbdae230090b37031e66c99,
  0x327003711155cbdae2300acd65b5a17519f,
  0x328003711155cbdae2300a904cdb8282e04,
  0x329003711155cbdae23008b937c38d1c525,
  0x32a003711155cbdae230098635e278567c7,
  0x32b006a509d178c38ab002a41336e0a0b81,
  0x32c00748a1bb0d52d97002a41336e0a0b81,
  0x32d00748a1bb0d52d97004f65a78f6f9c8c,
  0x32e002524742165910b0088fd18e367176f,
  0x32f002524742165910b00a159aec5317653,
  0x330002524742165910b00633f11734b83af,
  0x331000c2e4af0e52f720088fd18e367176f,
  0x33200061725787297b90082e5f36af47fb6,
  0x3330053b86a1ed20706004da144a65f6f4d,
  0x3340029dc350f69038300a159aec5317653,
  0x3350029dc350f6903830088fd18e367176f,
  0x3360029dc350f690383008348dc08d110fc,
  0x3370029dc350f69038300955cd8233a8f84,
  0x338004e042d443c00930041a46e0468887e,
  0x339006ed664467044d20020d2370234443f,
  0x33a00583d69256c66a800790fa027a0aae7,
  0x33b00583d69256c66a8004bdda9e598ee93,
  0x33c002c1eb492b6335400a41b130b05553b,
  0x33d00160f5a495b19aa008e0bb8c1aa3b91,
  0x33e000b07ad24ad8cd50083040b9cfcaebc,
  0x33f00372661b763c02900991365e657c866,
  0x34000372661b763c0290083b014aa8fa45c,
  0x34100372661b763c02900b024cdc40f5280,
  0x342004e37c9951b4a430041d80a5547d22e,
  0x343006f23cebfbf335a0020ec052aa3e917,
  0x344007969f1b5276bdb0020ec052aa3e917,
  0x34500587dec8a8382c4004c1e2d4ab00aaf,
  0x346002c3ef64541c16200a49c19d5338d73,
  0x34700161f7b22a0e0b1008e7c9eb292acc2,
  0x34800161f7b22a0e0b100899cc0c12bf874,
  0x349006e9d67ad24637500311ed436a875b0,
  0x34a006e9d67ad24637500188f6a1b543ad8,
  0x34b007ae51cbace80e1000c47b50daa1d6c,
  0x34c007b45458373eb85000c47b50daa1d6c,
  0x34d007b45458373eb85000623da86d50eb6,
  0x34e007e5732c6de72e0000311ed436a875b,
  0x34f00720f7db9345574000f59a25114a4c7,
  0x35000766e4820ecbdd6000f59a25114a4c7,
  0x35100789dad54c8f207000f59a25114a4c7,
  0x3520062aeec751814f50072088ec62cb9bc,
  0x3530043fba7d2eecb670090bbd36856034a,
  0x3540043fba7d2eecb6700485de9b42b01a5,
  0x35500462cc8c38ce686008e8ab277b7e82b,
  0x35600462cc8c38ce68600974f363a3054a7,
  0x3570023166461c6734300974f363a3054a7,
  0x3580023166461c6734300804931afc1d738,
  0x359002f26c4391e691700804931afc1d738,
  0x35a006f4b5d10ff54b300402498d7e0eb9c,
  0x35b006f4b5d10ff54b30020124c6bf075ce,
  0x35c007f548346f78f9a0010092635f83ae7,
  0x35d004f3910a50edee500502dbf0dd92683,
  0x35e004fb367d97402b4009fe126e74d2937,
  0x35f0027d9b3ecba015a009fe126e74d2937,
  0x36000275f5cb854dd8b009fe126e74d2937,
  0x3610063a041cfd10361003c40e5177c25d6,
  0x3620063a041cfd10361001e20728bbe12eb,
  0x36300457fcf4412f0760096a23cbab65e97,
  0x3640022bfe7a209783b0096a23cbab65e97,
  0x3650022bfe7a209783b007f70f9d06963a4,
  0x366006278648a3e2a0d003fb87ce834b1d2,
  0x367006278648a3e2a0d00dc220bfec94f0d,
  0x368006278648a3e2a0d003cd4d3ba459280,
  0x369006278648a3e2a0d001e6a69dd22c940,
  0x36a006278648a3e2a0d00359bacc76fc433,
  0x36b006278648a3e2a0d004c0a08a8d6f720,
  0x36c006278648a3e2a0d00260504546b7b90,
  0x36d0052e1bc1739e16a00359bacc76fc433,
  0x36e002970de0b9cf0b500887d68dea9a59d,
  0x36f0058f72375234b29002f864569865a74,
  0x3700070ba4629e678630017c322b4c32d3a,
  0x3710058f72375234b2900cfc6d0fcf32d4b,
  0x3720058f72375234b29003b67d6c3e7f111,
  0x3730058f72375234b29004a2f7d1c859e1d,
  0x37400768670265ea541002ca0306b4a4405,
  0x3750051935048d474a300cfc6d0fcf32d4b,
  0x3760051935048d474a3003f19c05a0f5c54,
  0x37700640ce037998cf200cfc6d0fcf32d4b,
  0x378003206701bccc679009dc060e12666d2,
  0x379003206701bccc6790080e6a08c5ff9e2,
  0x37a00152cafc7065989009040c1a7e020b0,
  0x37b007279c061fcc36a005d4d109af669e1,
  0x37c00393ce030fe61b5009689f0cbf4cb96,
  0x37d00393ce030fe61b5008481d896f8c780,
  0x37e006071a82d00bf54005d4d109af669e1,
  0x37f003038d416805faa008d85e4b176c98b,
  0x38000181c6a0b402fd5008d85e4b176c98b,
  0x38100788e123840ef290014f7d27935da62,
  0x38200788e123840ef29000a7be93c9aed31,
  0x383004184fdba6dee2d008d85e4b176c98b,
  0x384003709147dd300fc00a27db72aaca3ed,
  0x385001b848a3ee9807e0086f92cebc3236f,
  0x386000dc2451f74c03f0086f92cebc3236f,
  0x387000dc2451f74c03f008166cd836ef2d3,
  0x388000dc2451f74c03f0089ee06054af504,
  0x389000dc2451f74c03f0089c25c9fed3bbd,
  0x38a000dc2451f74c03f0082cb655d83fefa,
  0x38b0044cb599d47c13b00b9d479db56fff6,
  0x38c0044cb599d47c13b005cea3cedab7ffb,
  0x38d0050dacb4579a09b005cea3cedab7ffb,
  0x38e007d8741925da316005cea3cedab7ffb,
  0x38f003ec3a0c92ed18b005cea3cedab7ffb,
  0x390004dd6eedb6d28c3005cea3cedab7ffb,
  0x39100556095e48c545f005cea3cedab7ffb,
  0x392003739f9c00fa5ef005cea3cedab7ffb,
  0x393004a121b56dd92f5005cea3cedab7ffb,
  0x39400537e2c22448978005cea3cedab7ffb,
  0x395002dcde8f4a8af6c005cea3cedab7ffb,
  0x3960073d13167ffd7b1005cea3cedab7ffb,
  0x39700685db72ad5abd6005cea3cedab7ffb,
  0x3980039416331d2db47005176c2b0815420,
  0x3990061fcc48a1385570028bb615840aa10,
  0x39a00765a753633da5f00145db0ac205508,
  0x39b00765a753633da5f000a2ed856102a84,
  0x39c004d9f13ddf3304f0032ea39ae50d494,
  0x39d00671430b51b9a990019751cd7286a4a,
  0x39e0073cebf20afcfbe000cba8e6b943525,
  0x39f00671430b51b9a99003fa4c819e509b9,
  0x3a000535c7c67805229003fa4c819e509b9,
  0x3a1004980a240b2adf1003fa4c819e509b9,
  0x3a200535c7c6780522900c8ca32747cc163,
  0x3a300535c7c67805229003ab6db067e379d,
  0x3a4004709abb6ff44e3003ab6db067e379d,
  0x3a5004709abb6ff44e30040e0435ebebe40,
  0x3a6004709abb6ff44e300b64df96bbb2d7a,
  0x3a7004709abb6ff44e300a230a86cdcdba0,
  0x3a8004709abb6ff44e3009821ffed6db2b3,
  0x3a90028ddb238b1ca1c005b26fcb5dd96bd,
  0x3aa00146ed91c58e50e006f95d5d2367bcb,
  0x3ab0079cd426062ee52006f95d5d2367bcb,
  0x3ac0033151ec6de3ca3006f95d5d2367bcb,
  0x3ad0051557a4c8a5c37006f95d5d2367bcb,
  0x3ae006075a80f606c01006f95d5d2367bcb,
  0x3af006805bef0cb73e600d79b94c301efb1,
  0x3b00051557a4c8a5c37007725ecb3a183b0,
  0x3b10051557a4c8a5c37003b92f659d0c1d8,
  0x3b2006f1ef57972bd23001dc97b2ce860ec,
  0x3b3007cda8231fd90f5000806f73a2ec68d,
  0x3b4004270bcb6162bc1004a77b3f044f24e,
  0x3b50067ac96ae38a4e800253bd9f8227927,
  0x3b6004270bcb6162bc100ba2b41d8ac5dc3,
  0x3b7007e4dff476144c2003bdd42914b1901,
  0x3b8003f26ffa3b0a26100ba2b41d8ac5dc3,
  0x3b9003f26ffa3b0a26100bbd02061df2273,
  0x3ba0001a4de8932c4b0008057e519d79585,
  0x3bb0000d26f44996258008057e519d79585,
  0x3bc00006937a24cb12c008057e519d79585,
  0x3bd00020e162b7f75dc008057e519d79585,
  0x3be0001070b15bfbaee008057e519d79585,
  0x3bf000083858adfdd77008057e519d79585,
  0x3c00002919bb65f5353008057e519d79585,
  0x3c10002919bb65f53530081acf5376a9787,
  0x3c2004ef75306c1960c004c65b7506242b9,
  0x3c300277ba98360cb06009b5d0a5723d8c5,
  0x3c4007904984081b465004c65b7506242b9,
  0x3c50062b527c871fb8f004c65b7506242b9,
  0x3c60062b527c871fb8f00578d6f8c6a1f24,
  0x3c7006ddce00479d7fa00361646d85289e3,
  0x3c80036ee70023cebfd00a3f326dccc61dd,
  0x3c90036ee70023cebfd00a45f3b71c192ea,
  0x3ca0036ee70023cebfd00a2aee91decceb6,
  0x3cb0036ee70023cebfd008845e491335358,
  0x3cc0036ee70023cebfd00b1ffd24d1381a6,
  0x3cd0036ee70023cebfd0058ffe92689c0d3,
  0x3ce0036ee70023cebfd00aa575db580282e,
  0x3cf0036ee70023cebfd008c1a1edcfd0014,
  0x3d00036ee70023cebfd007cfb7f70bb6c07,
  0x3d10027cfd095fb57f0009b38be493e9421,
  0x3d20013e7e84afdabf8008750d5fe40e829,
  0x3d30009f3f4257ed5fc008750d5fe40e829,
  0x3d40031c3c4bb7a2dec009144ca23bfbe25,
  0x3d50018e1e25dbd16f6009144ca23bfbe25,
  0x3d6000c70f12ede8b7b0084d3d8f4e132aa,
  0x3d7003e34b5ea58b9670084d3d8f4e132aa,
  0x3d8003e34b5ea58b967004269ec7a709955,
  0x3d900404f513264a95e0082b93dacd542b3,
  0x3da002027a8993254af0082b93dacd542b3,
  0x3db001e0d0d512664b80082b93dacd542b3,
  0x3dc000f0686a893325c0082b93dacd542b3,
  0x3dd000783435449992e0082b93dacd542b3,
  0x3de00259050a56ffde6008a3c81011edbe1,
  0x3df0012c82852b7fef3008a3c81011edbe1,
  0x3e0004e8254a9eb6d6a003bba2c57336e77,
  0x3e1005de8c99d97fabf003bba2c57336e77,
  0x3e2004cd17afa65b49b003bba2c57336e77,
  0x3e30080000000000000003bba2c57336e77,
  0x3e4004000000000000000bbba2c57336e77,
  0x3e5004000000000000000aaa2ddb4012853,
  0x3e60020000000000000008aa2ddb4012853,
  0x3e70010000000000000008aa2ddb4012853,
  0x3e8001000000000000000852e548405c99f,
  0x3e9000800000000000000852e548405c99f,
  0x3ea000400000000000000812e548405c99f,
  0x3eb00040000000000000081e7a6941cf01b,
  0x3ec00020000000000000081e7a6941cf01b,
  0x3ed00010000000000000080e7a6941cf01b,
  0x3ee0000800000000000008067a6941cf01b,
  0x3ef000080000000000000800640e490b087,
  0x3f0000040000000000000800640e490b087,
  0x3f1000020000000000000800640e490b087,
  0x3f2000020000000000000801f4476d372a3,
  0x3f3000010000000000000800f4476d372a3,
  0x3f400000800000000000080074476d372a3,
  0x3f500000800000000000080045652213d2f,
  0x3f600000400000000000080005652213d2f,
  0x3f700000200000000000080005652213d2f,
  0x3f800000100000000000080005652213d2f,
  0x3f90000010000000000008000af9aa631eb,
  0x3fa00000080000000000080002f9aa631eb,
  0x3fb00000040000000000080002f9aa631eb,
  0x3fc00000040000000000080002e053ef997,
  0x3fd00000020000000000080000e053ef997,
  0x3fe00000010000000000080000e053ef997,
  0x3ff0000001000000000008000061a3adff3]

set_option maxRecDepth 100000 in
theorem dCerts1_ok : checkFrom (-1076) dCheck 512 dCerts1 = true := by decide +kernel

def dCerts2 : List Nat := [
  0x4000000000800000000008000061a3adff3,
  0x4010000000400000000008000021a3adff3,
  0x4020000000200000000008000001a3adff3,
  0x40300000002000000000080000083265fbf,
  0x40400000001000000000080000083265fbf,
  0x40500000000800000000080000003265fbf,
  0x4060000000080000000008000000fbfdebb,
  0x4070000000040000000008000000fbfdebb,
  0x4080000000020000000008000000fbfdebb,
  0x4090000000020000000008000000ebf59a7,
  0x40a0000000010000000008000000ebf59a7,
  0x40b00000000080000000080000006bf59a7,
  0x40c00000000040000000080000002bf59a7,
  0x40d00000000040000000080000001bcc043,
  0x40e00000000020000000080000001bcc043,
  0x40f00000000010000000080000000bcc043,
  0x41000000000010000000080000000afc14f,
  0x411000000000080000000800000002fc14f,
  0x412000000000040000000800000002fc14f,
  0x413000000000040000000800000002ec68b,
  0x414000000000020000000800000000ec68b,
  0x415000000000010000000800000000ec68b,
  0x4160000000000080000008000000006c68b,
  0x4170000000000080000008000000001e0b7,
  0x4180000000000040000008000000001e0b7,
  0x4190000000000020000008000000001e0b7,
  0x41a00000000000200000080000000016393,
  0x41b00000000000100000080000000006393,
  0x41c00000000000080000080000000006393,
  0x41d000000000000800000800000000071df,
  0x41e000000000000400000800000000031df,
  0x41f000000000000200000800000000011df,
  0x420000000000000100000800000000001df,
  0x4210000000000001000008000000000095b,
  0x4220000000000000800008000000000015b,
  0x4230000000000000400008000000000015b,
  0x424000000000000040000800000000002c7,
  0x425000000000000020000800000000000c7,
  0x426000000000000010000800000000000c7,
  0x427000000000000010000800000000000e3,
  0x42800000000000000800080000000000063,
  0x42900000000000000400080000000000023,
  0x42a00000000000000200080000000000003,
  0x42b0000000000000020008000000000000f,
  0x42c0000000000000010008000000000000f,
  0x42d00000000000000080080000000000007,
  0x42e00000000000000080080000000000003,
  0x42f00000000000000040080000000000003,
  0x43000000000000000020080000000000001,
  0x43100000000000000020080000000000001,
  0x43200000000000000010080000000000001,
  0x43300000000000000010080000000000001,
  0x43400000000000000010080000000000001,
  0x43500000000000000010080000000000001,
  0x43600000000000000010080000000000001,
  0x43700000000000000010080000000000001,
  0x43800000000000000010080000000000001,
  0x43900000000000000010080000000000001,
  0x43a00000000000000010080000000000001,
  0x43b00000000000000050080000000000003,
  0x43c00000000000000050080000000000005,
  0x43d00000000000000050080000000000001,
  0x43e0000000000000019008000000000000b,
  0x43f00000000000000190080000000000009,
  0x44000000000000000190080000000000008,
  0x44100000000000000190080000000000014,
  0x442000000000000007d008000000000002d,
  0x443000000000000007d0080000000000065,
  0x444000000000000007d0080000000000004,
  0x4450000000000000271008000000000017b,
  0x44600000000000002710080000000000189,
  0x44700000000000002710080000000000190,
  0x4480000000000000c350080000000000401,
  0x4490000000000000c35008000000000053d,
  0x44a0000000000000c3500800000000005db,
  0x44b0000000000000c35008000000000062a,
  0x44c0000000000003d0900800000000036fe,
  0x44d0000000000003d0900800000000024d6,
  0x44e0000000000003d090080000000001bc2,
  0x44f000000000001312d0080000000001bc2,
  0x450000000000001312d008000000000ce53,
  0x451000000000001312d0080000000008f05,
  0x452000000000005f5e10080000000008f05,
  0x453000000000005f5e1008000000001a08b,
  0x454000000000005f5e1008000000002294e,
  0x455000000000005f5e100800000000568a0,
  0x45600000000001dcd6500800000000b5e81,
  0x45700000000001dcd65008000000018e9ec,
  0x45800000000001dcd65008000000010c8ef,
  0x45900000000009502f9008000000010c8ef,
  0x45a00000000009502f900800000001b9f23,
  0x45b00000000009502f90080000000210a3d,
  0x45c0000000002e90edd00800000014b102f,
  0x45d0000000002e90edd0080000000b8c2c3,
  0x45e0000000002e90edd00800000006f9c0d,
  0x45f0000000002e90edd00800000004b08b2,
  0x460000000000e8d4a51008000000334178f,
  0x461000000000e8d4a510080000004965550,
  0x462000000000e8d4a51008000000c8e1959,
  0x4630000000048c273950080000046c3429d,
  0x4640000000048c273950080000034eb3528,
  0x4650000000048c2739500800000079df4a3,
  0x466000000016bcc41e90080000050606838,
  0x467000000016bcc41e90080000015588e2b,
  0x468000000016bcc41e900800000adbac219,
  0x469000000016bcc41e900800000f9ebdc10,
  0x46a000000071afd498d00800006a91ce3b4,
  0x46b000000071afd498d00800004ad830dd2,
  0x46c000000071afd498d00800003afb622e1,
  0x46d0000002386f26fc10080000acab36c6e,
  0x46e0000002386f26fc1008000232a437863,
  0x46f0000002386f26fc10080001d9692467d,
  0x470000000b1a2bc2ec500800064a47725ff,
  0x471000000b1a2bc2ec5008000a8e8836c8e,
  0x472000000b1a2bc2ec500800072392b7873,
  0x473000000b1a2bc2ec5008000afb2dd95c8,
  0x474000003782dace9d9008000afb2dd95c8,
  0x475000003782dace9d90080028a868d195f,
  0x476000003782dace9d9008001bbd98e663e,
  0x47700001158e460913d008008ac34e839f0,
  0x47800001158e460913d00800d7922ec3f25,
  0x47900001158e460913d0080073327bdf921,
  0x47a000056bc75e2d63100803b3dd4dfacd8,
  0x47b000056bc75e2d631008026c1f2e7f899,
  0x47c000056bc75e2d631008047e23cdd8992,
  0x47d000056bc75e2d63100802d1426e6e6f6,
  0x47e0001b1ae4d6e2ef500813149888f6989,
  0x47f0001b1ae4d6e2ef500801fad1beb95a8,
  0x4800001b1ae4d6e2ef500806fb60c50c332,
  0x481000878678326eac90082216459bef227,
  0x482000878678326eac9008097ba848359f7,
  0x483000878678326eac900884b4d1d0c78a8,
  0x484002a5a058fc295ed0090c3b4a0336371,
  0x485002a5a058fc295ed0087e8e2a7bd929c,
  0x486002a5a058fc295ed0098a87c7363f528,
  0x487002a5a058fc295ed00a108495937266e,
  0x4880032b9d27595c73300a108495937266e,
  0x4890032b9d27595c73300508424ac9b9337,
  0x48a00419efb9118ad35009223203db4406c,
  0x48b0023d4a95a12e131009223203db4406c,
  0x48c006ce63978ed0167004911901eda2036,
  0x48d006ce63978ed0167002488c80f6d101b,
  0x48e006a15bea38445bf002488c80f6d101b,
  0x48f006bd80b68e5bb08002488c80f6d101b,
  0x490007efd95d34cfdba002488c80f6d101b,
  0x49100640792f9138ef8002488c80f6d101b,
  0x492003f7ecae9a67edd00b6abe84d215087,
  0x493007b15599b63e7b2003b968eb1bd68d5,
  0x494003d8aaccdb1f3d900b6abe84d215087,
  0x495003d8aaccdb1f3d900aedb6fdd4f2477,
  0x496003d8aaccdb1f3d900b3bdbb23328001,
  0x497003d8aaccdb1f3d900b62ee0c6242dc6,
  0x498003d8aaccdb1f3d900ac6a4a3a5d76b2,
  0x499003d8aaccdb1f3d90093bfd1eae0af32,
  0x49a003d8aaccdb1f3d900876a95c3224b72,
  0x49b0024e0347e352c5900876a95c3224b72,
  0x49c0068957f5fc652120043b54ae19125b9,
  0x49d0078000a91744ec20043b54ae19125b9,
  0x49e003c000548ba2761007fb5502a4b4d1a,
  0x49f0060e039c6ef53ba0043b54ae19125b9,
  0x4a000742567c508cf960043b54ae19125b9,
  0x4a1007dc7fec4158d840043b54ae19125b9,
  0x4a200573da2c7e295cc0043b54ae19125b9,
  0x4a3006f541c4582709f0043b54ae19125b9,
  0x4a4005984b39389cb2c0043b54ae19125b9,
  0x4a5005984b39389cb2c0045fc5bad385b19,
  0x4a6002cc259c9c4e596009f810f40c22645,
  0x4a70016612ce4e272cb00891fe25bdfb37a,
  0x4a80016612ce4e272cb0087b377dc97321e,
  0x4a9006fe5e0786c3df70017cd97642af427,
  0x4aa006fe5e0786c3df70043d9bbee4b990f,
  0x4ab0059dfce335beb830043d9bbee4b990f,
  0x4ac0016061245105274008d0a0739e71737,
  0x4ad000b03092288293a008206fe175eedfd,
  0x4ae000581849144149d008206fe175eedfd,
  0x4af001b8796d6546711008d0a0739e71737,
  0x4b0001b8796d6546711008b57fcb4c68d46,
  0x4b1007cbb2c070c14c50061339530b7adb4,
  0x4b2007cbb2c070c14c5003099ca985bd6da,
  0x4b3007493be6d9e938c00151233c2076fc9,
  0x4b400646e46bade295800ddeec137c3c279,
  0x4b5003237235d6f14ac00abb79dda54adcd,
  0x4b6006c8102943e5e72004749571f768475,
  0x4b7007d89d86995b3ae004749571f768475,
  0x4b8003ec4ec34cad9d700860e4354415e4c,
  0x4b9007e776cdd35979f0008846aeaabaa9e,
  0x4ba007e776cdd35979f000442357555d54f,
  0x4bb007cfbbd93f760c9000442357555d54f,
  0x4bc004d6599e4a81af90051a7cf59fdf048,
  0x4bd004d6599e4a81af900b0163f13fd607d,
  0x4be004d6599e4a81af900cc238660fad8b4,
  0x4bf004d6599e4a81af9006611c3307d6c5a,
  0x4c00003611e012826d6007ebdec7c52bdbb,
  0x4c10001b08f0094136b007ebdec7c52bdbb,
  0x4c20040373dbe73689300bef52a3ac6264e,
  0x4c30001b08f0094136b0080748676506539,
  0x4c40001b08f0094136b008147c4d16d1e34,
  0x4c5004fd8e96deb3ddd004e285a6d572a72,
  0x4c6004fd8e96deb3ddd00c6c600128210f3,
  0x4c7002a754b37d3bc0f0076ed16a496d316,
  0x4c80065ebd68a1f259a003b768b524b698b,
  0x4c9006e6c76975afc58003b768b524b698b,
  0x4ca002a754b37d3bc0f007f6db6b1d2a9d4,
  0x4cb006a2c2690bd10f9003fb6db58e954ea,
  0x4cc006a2c2690bd10f9001fdb6dac74aa75,
  0x4cd000a99dd8b5f119a008a156947893115,
  0x4ce00054ceec5af88cd0084c87a81d9a848,
  0x4cf005797f857aaf75800524b0991fb6e8b,
  0x4d0002bcbfc2bd57bac007e1705bdd0ea37,
  0x4d100054ceec5af88cd0080e011ba8354bf,
  0x4d2006d7df66d95b52e00683107a7e62c61,
  0x4d30036befb36cada9700683107a7e62c61,
  0x4d40072cae533453dfb002c251dab6bc8fd,
  0x4d5004f78016f58837c00cb15208a1ccff5,
  0x4d60027bc00b7ac41be00a3591fd2708e37,
  0x4d70027bc00b7ac41be008d4192e9c26975,
  0x4d80013de005bd620df008d4192e9c26975,
  0x4d90013de005bd620df008c29cab64ea7c7,
  0x4da0013de005bd620df008b9de69c94c6f0,
  0x4db0013de005bd620df008dcd77037c4a4c,
  0x4dc0013de005bd620df008280bc954087c3,
  0x4dd0013de005bd620df0086c95f8c0db6ee,
  0x4de00635601cb2ea45b00d64160fb663a6a,
  0x4df00635601cb2ea45b00ce76b248e1c190,
  0x4e000635601cb2ea45b00ca915aef9f8523,
  0x4e1005f70aa71ec67ee00d25c09a223fdfd,
  0x4e2002fb85538f633f700a2a3b4692dca06,
  0x4e3002fb85538f633f700810a2f6d8d18fa,
  0x4e400703d6cefbcc07400408517b6c68c7d,
  0x4e5001eeb92bb25db710091d6f1eb5d7180,
  0x4e60067d70bb0d494310048eb78f5aeb8c0,
  0x4e70067d70bb0d49431002475bc7ad75c60,
  0x4e80043614f35fd37d100b64cae6634cde0,
  0x4e90043614f35fd37d1009e87a669179ec1,
  0x4ea0070f47acf8a6b49002d932b998d3378,
  0x4eb0015ce239c700459008ca74b8e01eff4,
  0x4ec0015ce239c7004590071efecffe100ac,
  0x4ed004ec61a1c6084af0038f7f67ff08056,
  0x4ee006b42155c58c4da001c7bfb3ff8402b,
  0x4ef007a626155408d610006add7a3883bd2,
  0x4f0007db94d2704ab4a000356ebd1c41de9,
  0x4f1004233926546738e00458a7e370a9177,
  0x4f2004233926546738e009519bfe3617ca9,
  0x4f3002119c932a339c7009519bfe3617ca9,
  0x4f4002119c932a339c7009d4d56f048cec6,
  0x4f5002119c932a339c7009d98c3ef4ec019,
  0x4f6002119c932a339c70080730fc39c36b7,
  0x4f7002119c932a339c70092f9fee0662bcd,
  0x4f80079c85fbba452d0000e92da15d944b1,
  0x4f9004b7709f3ab6e19005a09e40984b2ca,
  0x4fa00787bfbf86dc77e002d04f204c25965,
  0x4fb006942f000f93d24002d04f204c25965,
  0x4fc006942f000f93d2400e118ba17cbbef9,
  0x4fd0034a178007c9e9200ac7742174f2067,
  0x4fe001a50bc003e4f49009226861710d11e,
  0x4ff000bbde1ea650a980077d5ca16d281d5,
  0x5000005def0f532854c007db4bb0c050721,
  0x5010002ef787a9942a60080a433869e49c7,
  0x502000ead5a64fe4d3e007ac542916bc47b,
  0x503000756ad327f269f007ac542916bc47b,
  0x50400410df7e1f5758d00bbd33a73613a08,
  0x50500410df7e1f5758d009ef7951ba61291,
  0x506007b445203ad3780001cdba557bb2777,
  0x50700775973b14ceaae001cdba557bb2777,
  0x508003bacb9d8a675570058885f30619cce,
  0x509001ed11480eb4de000904a3ab6a7c553,
  0x50a000f688a4075a6f00080e1b076321e63,
  0x50b0007b445203ad3780080e1b076321e63,
  0x50c0007b445203ad37800803a5adf953f87,
  0x50d0003da22901d69bc00803a5adf953f87,
  0x50e0001ed11480eb4de00803a5adf953f87,
  0x50f0000f688a4075a6f00803a5adf953f87,
  0x5100004d0ab3424c42b00831df4cbab4ed4,
  0x5110004d0ab3424c42b008027ac0bb39d99,
  0x5120004d0ab3424c42b008114dd45ca2711,
  0x5130018135804b7d4d70085e58879eeeb3c,
  0x5140018135804b7d4d7008b2ccc4b1ef423,
  0x5150051a01227eb647d00398cba23338fa6,
  0x516007860b81797283300398cba23338fa6,
  0x517007860b817972833001cc65d1199c7d3,
  0x518006759e7a6323fd6001cc65d1199c7d3,
  0x519006d39adf64caf91001cc65d1199c7d3,
  0x51a00507350e4b2e7be003f6c80734dff61,
  0x51b002839a8725973df008fdfd15800e71f,
  0x51c002839a8725973df008446655786a15e,
  0x51d0077ee5638675b14000b996c007a45c1,
  0x51e006a5cdb1e1cc48e00e053223cb3cedd,
  0x51f00352e6d8f0e624700ab24b4ada56c96,
  0x520001dfb958e19d6c50075f6471e970a4f,
  0x5210049f8ee5658708a00bfef3574ef7ad9,
  0x5220024fc772b2c3845009af2be49c34294,
  0x523007275d6500dd98f004d795f24e1a14a,
  0x524007d66d620c0dc9900038070ce8930c0,
  0x525007f270e880574f90001c03867449860,
  0x526007f270e880574f90000e01c33a24c30,
  0x527007f234778c45fed0000e01c33a24c30,
  0x528007f9355929586050000700e19d12618,
  0x529007fcb5c9f7e1911000038070ce8930c,
  0x52a007f5b4e85acf2f900011823408adf3c,
  0x52b007fe76025f2629700008c11a0456f9e,
  0x52c007fe76025f2629700004608d022b7cf,
  0x52d007fd4b9eaa3d89a00004608d022b7cf,
  0x52e007f48a84a5e68fc00015e2c10ad970b,
  0x52f007fee6b350def8300015e2c10ad970b,
  0x53000775d2e3dfd5cff00f018888ca85109,
  0x53100775d2e3dfd5cff00f59138cf5ead35,
  0x53200775d2e3dfd5cff003f1a0548b0a81b,
  0x53300775d2e3dfd5cff005b3b99c357028d,
  0x534004d8de11c8f1c1f003f1a0548b0a81b,
  0x535004653f3329fe21d003f1a0548b0a81b,
  0x5360042b6fc3da8451c003f1a0548b0a81b,
  0x53700215b7e1ed4228e0081d1018658ed37,
  0x5380024f87513cbbf8f0081d1018658ed37,
  0x539005364bb4d125663002e6c46394696d4,
  0x53a005364bb4d125663006a9ade69b5a1cd,
  0x53b0024f87513cbbf8f00990724a2fc38a1,
  0x53c005effccdb63fc18003a0757c7983c89,
  0x53d002f7fe66db1fe0c00990724a2fc38a1,
  0x53e001a7103b9e581120069873e354a3a95,
  0x53f0076bfc0123cfb1e0069873e354a3a95,
  0x540003b5fe0091e7d8f00a4e71e3e68b824,
  0x541003b5fe0091e7d8f008dd36f2852d9a1,
  0x542000d3881dcf2c08900809aed4b601918,
  0x543004d85f882a2cd1500404d76a5b00c8c,
  0x544004d85f882a2cd15006dacb3d57ad35b,
  0x54500624144a395c8f3002026bb52d80646,
  0x546007254a24d01cc160010135da96c0323,
  0x547007977c7cc30f2970010135da96c0323,
  0x5480059510c7958ec51005060d44f1c0faf,
  0x5490054d8f0643a7e00005060d44f1c0faf,
  0x54a002a6c78321d3f0000a539c4b3568daf,
  0x54b0015363c190e9f80009003889a47ee2f,
  0x54c006a0f2c7d491d8000659710682aaf2f,
  0x54d003507963ea48ec0009a9ea6a6cf3def,
  0x54e001a83cb1f52476000801adb877cf68f,
  0x54f001efbe73470b5b100659710682aaf2f,
  0x5500042497bce4db27000a7e08c3678619f,
  0x551002124bde726d9380086bbce4f518867,
  0x552001efbe73470b5b10086bbce4f518867,
  0x5530052dbdac1e11f0c0033dff38d70695b,
  0x55400296ded60f08f860086bbce4f518867,
  0x5550014b6f6b07847c30086bbce4f518867,
  0x556006792d1725966cf001f28fcdcf82198,
  0x557006792d1725966cf0077274fe0d5779b,
  0x558006f5d10a9976f350077274fe0d5779b,
  0x5590057fe5303dd5603007ef18f18138001,
  0x55a006b77f10df86b02007ef18f18138001,
  0x55b0035bbf886fc358100b4ad879f0fb582,
  0x55c0057fe5303dd560300b4ad879f0fb582,
  0x55d0057fe5303dd5603005a56c3cf87dac1,
  0x55e00592a8b69b29862005a56c3cf87dac1,
  0x55f007ed8ccdde674fa00012c3865d5425f,
  0x560007fec844fc47ce600012c3865d5425f,
  0x56100700b4a7709dfaa00713782dcdf2209,
  0x562003805a53b84efd500a93d28186411de,
  0x563006edf1211349d4b003a5e16072f7493,
  0x564006edf1211349d4b00549e940c3208ef,
  0x5650061bed30eb3531d00549e940c3208ef,
  0x566000d203f02814a2e0086537a05ddccb7,
  0x5670006901f8140a5170086537a05ddccb7,
  0x5680006901f8140a517008182e84ed506b6,
  0x5690020d09d8643397300881307d015abcd,
  0x56a00754270316fac13005471d2ab2c72a0,
  0x56b00754270316fac13002a38e955963950,
  0x56c00754270316fac1300151c74aacb1ca8,
  0x56d00754270316fac1300698e4755f78f48,
  0x56e00754270316fac130034c723aafbc7a4,
  0x56f00754270316fac13001a6391d57de3d2,
  0x570000bb428db781ccb0083f1d92b75731a,
  0x571004dad157132d6580041f8ec95bab98d,
  0x5720026d68ab8996b2c0068cf774e5424b9,
  0x5730070c990039b2cb9001b2261dd214e61,
  0x5740061185acd7f8bee007c3abcaaa0da4f,
  0x57500308c2d66bfc5f7007c3abcaaa0da4f,
  0x5760056637508b05023007c3abcaaa0da4f,
  0x5770056637508b0502300bd346629b2b2dc,
  0x5780056637508b0502300b4fda81d89a991,
  0x5790056637508b05023002f4d198a6cacb7,
  0x57a0079831b09e0dd79000836be0c29094b,
  0x57b0069eea2c7d221d900722560d3fb2b24,
  0x57c0069eea2c7d221d9003912b069fd9592,
  0x57d0028a53451ab82fc007a5c1ee024346f,
  0x57e0014529a28d5c17e008eaeb908f9f5ed,
  0x57f000a294d146ae0bf0084856bf48f152e,
  0x58000569550231d4c15004c6c030eb26b56,
  0x581000a294d146ae0bf008013884b0c2607,
  0x582000a294d146ae0bf008216392a3cc7dd,
  0x58300649baa5c94768b005a725d482995cc,
  0x58400649baa5c94768b0031cd28f67e12d0,
  0x58500649baa5c94768b00e21de93467f67e,
  0x58600649baa5c94768b00d5aa9ef6c871ca,
  0x58700649baa5c94768b003e4073341d9784,
  0x58800649baa5c94768b001f20399a0ecbc2,
  0x58900649baa5c94768b00d8c771863052f7,
  0x58a00649baa5c94768b003a15e394cdee36,
  0x58b0060711abd44cd3d003a15e394cdee36,
  0x58c007d7c0c87abc458001d0af1ca66f71b,
  0x58d0078d3e9d8a3d062001d0af1ca66f71b,
  0x58e003ebe0643d5e22c009136b8f402d387,
  0x58f001f5f0321eaf116009136b8f402d387,
  0x590000faf8190f5788b00818737630d5afc,
  0x591004e6d87d4cb5ab700b095bc15edc49d,
  0x592007f81a1f55c8faa0031141a209134f3,
  0x593003fc0d0faae47d500b095bc15edc49d,
  0x59400782b46884e063900386a758d9fbe64,
  0x5950047172c67bcd14600b095bc15edc49d,
  0x59600238b9633de68a3008d0a25e20f5bfa,
  0x597006a10a924e616a000468512f107adfd,
  0x59800238b9633de68a3008b53d97deff21f,
  0x59900238b9633de68a3009e86e440a3fea7,
  0x59a00238b9633de68a30061093d3a4133a5,
  0x59b00743c47fcf5402d003d7da70662cb02,
  0x59c00743c47fcf5402d001ebed383316581,
  0x59d00683c614344b858001ebed383316581,
  0x59e0052dd0424d3c1ad00719bd7a805272e,
  0x59f00497d8dc01352d700719bd7a805272e,
  0x5a000497d8dc01352d70038cdebd4029397,
  0x5a10079f3a89e0d86ce0038cdebd4029397,
  0x5a200628500a22c71b70038cdebd4029397,
  0x5a3004da9763b1782a70038cdebd4029397,
  0x5a4007c099cdb8f9eb60038cdebd4029397,
  0x5a5007c099cdb8f9eb60023f2616ceda487,
  0x5a6003e04ce6dc7cf5b009ffbfe487d433d,
  0x5a7003e04ce6dc7cf5b00ad0534c8ea58a7,
  0x5a8007585019b591401003780332d9144a6,
  0x5a9005192a02e6b6f7a0030fb97ed5ab9f1,
  0x5aa0059c4e8049071ae0030fb97ed5ab9f1,
  0x5ab002ce274024838d7008ac07ff1eb2b9f,
  0x5ac007e751430b3a8510030fb97ed5ab9f1,
  0x5ad0057b8560f0731210030fb97ed5ab9f1,
  0x5ae0057b8560f073121004459f6fe30f589,
  0x5af0057b8560f073121004e98d0c9df384a,
  0x5b00057b8560f073121007f04be73f6cd46,
  0x5b10057b8560f073121003f825f39fb66a3,
  0x5b2004b9d5aa4814be2003f825f39fb66a3,
  0x5b30057b8560f07312100caa21918781928,
  0x5b40057b8560f0731210065510c8c3c0c94,
  0x5b50057b8560f0731210032a886461e064a,
  0x5b60057b8560f073121004dd9f34087bd30,
  0x5b70057b8560f073121007ea54faf4b0fb9,
  0x5b8006b2ed2df29206d007ea54faf4b0fb9,
  0x5b9004441d93ee541d500a592494f8eee51,
  0x5ba0074ea11473a18130030a8380854d63e,
  0x5bb0074ea11473a18130018541c042a6b1f,
  0x5bc002bedbd3abad6b600a592494f8eee51,
  0x5bd0015f6de9d5d6b5b008f9b6ab23182f6,
  0x5be0073bb7293d39831005dc493f6762cd6,
  0x5bf0073bb7293d39831002ee249fb3b166b,
  0x5c00015f6de9d5d6b5b00928ff772b1c2ab,
  0x5c10015f6de9d5d6b5b006a3a49a565025e,
  0x5c2004b1403700fec8a00351d24d2b2812f,
  0x5c30015f6de9d5d6b5b0085c8806d4c01c9,
  0x5c40015f6de9d5d6b5b008fc44b5d6cf8a3,
  0x5c50052dd94fd6531ff003ce6b66007c6a4,
  0x5c6006dd25912d318c7003ce6b66007c6a4,
  0x5c7006dd25912d318c7001e735b3003e352,
  0x5c8007d0c06aad50a70000f39ad9801f1a9,
  0x5c9007b6cb9b5724bdc000f39ad9801f1a9,
  0x5ca0072b03ff2fb5483000f39ad9801f1a9,
  0x5cb007ddbad258669ba000f39ad9801f1a9,
  0x5cc007bd48cf2cafb81000f39ad9801f1a9,
  0x5cd006c9adf5ac909d8004c2063f809b84d,
  0x5ce00364d6fad6484ec004c2063f809b84d,
  0x5cf001b26b7d6b242760067471bcebbfac3,
  0x5d0000553c38c0d0f15007d1a1019612e24,
  0x5d10043e0cb98bda627003e8d080cb09712,
  0x5d20063274f9f15f1b0001f468406584b89,
  0x5d30050da2bd5e3446100c0fadbb21ed44b,
  0x5d400124d23c932ad4f008a13705686cc5e,
  0x5d50069a3ffbda8c0cd005756dbf476137e,
  0x5d60069a3ffbda8c0cd002bab6dfa3b09bf,
  0x5d7005b81b2edfd628b002bab6dfa3b09bf,
  0x5d8006f41fe6e573fe4002bab6dfa3b09bf,
  0x5d900634c6d3166a9b1002bab6dfa3b09bf,
  0x5da000bf5913cf096330086a22d38931556,
  0x5db007f1cecccfc79aa0073275b900be377,
  0x5dc003f8e76667e3cd50073275b900be377,
  0x5dd00595ae8fb45102600cc82448b50f39d,
  0x5de003f8e76667e3cd50080fe3ce7e22095,
  0x5df003f8e76667e3cd5009fd4d00dae6b8a,
  0x5e0003f8e76667e3cd5004fea6806d735c5,
  0x5e1004e0917ebf18eda004fea6806d735c5,
  0x5e20076eef3fccffd32004fea6806d735c5,
  0x5e3003b7779fe67fe99004fea6806d735c5,
  0x5e40027048bf5f8c76d008d43322024db49,
  0x5e50027048bf5f8c76d005a23df0b0ed15b,
  0x5e6004094358083cc64005a23df0b0ed15b,
  0x5e700204a1ac041e632007a6df9cb50b78d,
  0x5e800474ea6b63aad9f005a23df0b0ed15b,
  0x5e90050b942e0a4bf7d005a23df0b0ed15b,
  0x5ea00556e90f5d9c86c00af927000e899c7,
  0x5eb00429958a105a4b0005a23df0b0ed15b,
  0x5ec007b708b5b91a3b3005a23df0b0ed15b,
  0x5ed006aca3533503a87005a23df0b0ed15b,
  0x5ee00533faec9470ddc00497d88e2cd682f,
  0x5ef00731d604770ef1d00497d88e2cd682f,
  0x5f000731d604770ef1d005e4d74951f2ba6,
  0x5f100731d604770ef1d002f26ba4a8f95d3,
  0x5f20058c691af331cc100497d88e2cd682f,
  0x5f30051220d4900427800497d88e2cd682f,
  0x5f400289106a480213c009a9f962bcdaaa7,
  0x5f50030358b0ab2fb85009a9f962bcdaaa7,
  0x5f600656a909b40531600353505908d5791,
  0x5f70032b5484da0298b009a9f962bcdaaa7,
  0x5f8007e17b52ee0a48500027fbd42ed2e06,
  0x5f9007f5793d0573b8800013fdea1769703,
  0x5fa007e254571551c5a007f652412cbb35d,
  0x5fb003f12a2b8aa8e2d007f652412cbb35d,
  0x5fc003f12a2b8aa8e2d0084649e98a60f69,
  0x5fd003f12a2b8aa8e2d00a0ce436152dcf8,
  0x5fe003f12a2b8aa8e2d008f79c46953fca9,
  0x5ff001c69a4c8accd8f008f79c46953fca9]

set_option maxRecDepth 100000 in
theorem dCerts2_ok : checkFrom (-1076) dCheck 1024 dCerts2 = true := by decide +kernel

def dCerts3 : List Nat := [
  0x6000055f1b49900651c0039880fd053978d,
  0x601002af8da4c80328e008f79c46953fca9,
  0x602002af8da4c80328e009ebdc02c215e17,
  0x60300157c6d264019470089415305e144d0,
  0x60400157c6d26401947008515f0f5b0ee3d,
  0x60500157c6d26401947008dbe7680b8cf97,
  0x606006b6e21bf407e630037ccc1e7b86a7b,
  0x607006b6e21bf407e6300519d71d37c746f,
  0x608005e85c9c95e796900519d71d37c746f,
  0x609005e85c9c95e796900db07a58eb15359,
  0x60a005e85c9c95e7969003e40ede2a96cf8,
  0x60b005e85c9c95e7969007da640bab32fe5,
  0x60c005faa2ebebecf5e007da640bab32fe5,
  0x60d002fd5175f5f67af007da640bab32fe5,
  0x60e0056bdac0d094bca007da640bab32fe5,
  0x60f002b5ed60684a5e5007da640bab32fe5,
  0x61000344b58b83a29790052476ab42e8a00,
  0x611005d6f0e12516e79002923b55a174500,
  0x612007200e8bf5d10f9001491daad0ba280,
  0x61300757bc0ddd15ddd001491daad0ba280,
  0x614007fc4ae34572f1d000a48ed5685d140,
  0x615007fc4ae34572f1d00052476ab42e8a0,
  0x616007c990c1f910d1100052476ab42e8a0,
  0x617007f2b47753281610002923b55a17450,
  0x618007f2b47753281610001491daad0ba28,
  0x619007fcfd64a9ade750000a48ed5685d14,
  0x61a007d3d9af4f96a25000336ca2b09d164,
  0x61b007ed9000a7e52d700019b651584e8b2,
  0x61c007fa6b29540c7300000cdb28ac27459,
  0x61d007fa6b29540c7300004047cb5cc45bd,
  0x61e007c16a7f19879ab0004047cb5cc45bd,
  0x61f007c50e0faaa75c70004047cb5cc45bd,
  0x620007447e78f11ea4d0014166f8cfd5cb1,
  0x621006c5c0aa8025ce10014166f8cfd5cb1,
  0x622007c7c8bc177f2dc0014166f8cfd5cb1,
  0x6230068661c347a962b0064702dc0f2cf75,
  0x62400666b24fab6b2d00064702dc0f2cf75,
  0x625003335927d5b59680064702dc0f2cf75,
  0x62600199ac93eadacb4007e0af6ffa07c29,
  0x6270068661c347a962b00179fd204e9c959,
  0x628004002f71cb22fc20057a2c9219bf91b,
  0x6290020017b8e5917e10077a444aff510fc,
  0x62a000861a9896f4e880086e26d2b6f8bcd,
  0x62b000430d4c4b7a7440082b19866b7e489,
  0x62c0002186a625bd3a20080992e045c10e7,
  0x62d0002186a625bd3a20081a015f3eaca79,
  0x62e00010c35312de9d1008093e0c2bce0a8,
  0x62f00010c35312de9d10080329d194f2721,
  0x63000010c35312de9d100808815dd2f3f46,
  0x63100053d09f5e591150083acb570b8fcb9,
  0x632005ea61180cb1c50005969078ae58b3b,
  0x633002f5308c0658e280088bc104b4b1963,
  0x634006e5d2f627bcf8f002a15feca7ffd13,
  0x63500764f95e0fde364002a15feca7ffd13,
  0x636003b27caf07ef1b200a06594ab7de077,
  0x637007f6efb887ac42e002a15feca7ffd13,
  0x6380069cd7c8ebd5f2a002a15feca7ffd13,
  0x6390034e6be475eaf95005efcbd11deaca8,
  0x63a0064651cd04e05e9002f7e5e88ef5654,
  0x63b006f35dc4d2cb86b002a15feca7ffd13,
  0x63c004ca5ed8bd65abf00c361d9e22cb291,
  0x63d004ca5ed8bd65abf003b5df62b2b2be9,
  0x63e006f35dc4d2cb86b0018ce0769d4ce3d,
  0x63f004401f1db80c35400a0d1eb20d654e5,
  0x640002200f8edc061aa00a0d1eb20d654e5,
  0x641006f35dc4d2cb86b003acf0057952fe7,
  0x6420055026e5260f429003acf0057952fe7,
  0x6430055026e5260f4290047e8b754fb1208,
  0x6440055026e5260f42900cdf9384f3f7156,
  0x64500310e12a7e36b250082b7b7ac9041ef,
  0x64600310e12a7e36b25008af0f7d21d41af,
  0x64700310e12a7e36b25005dff853d00566a,
  0x64800041ca012c67fe0008224db39bb1b39,
  0x64900020e5009633ff00080168b3057db49,
  0x64a0001072804b19ff80080168b3057db49,
  0x64b000523c817781fd800811db335097b41,
  0x64c000291e40bbc0fec00811db335097b41,
  0x64d000148f205de07f600811db335097b41,
  0x64e0000a47902ef03fb0080793a321a7746,
  0x64f0003365d0eab13e70080793a321a7746,
  0x6500076d8cb12698dfa0073a26e03be7a13,
  0x651003b6c658934c6fd00af0ed38cf34110,
  0x652004845d9c3e11699003836087a89b316,
  0x653006460de0125f024001c1b043d44d98b,
  0x654006a66777b1cab28001c1b043d44d98b,
  0x655006a66777b1cab280022209db73b948f,
  0x6560035333bbd8e5594008c871532583fb7,
  0x657001a999ddec72aca008c871532583fb7,
  0x658000d4cceef639565008c871532583fb7,
  0x659000d4cceef6395650082bca7c5ff269c,
  0x65a000d4cceef6395650083de5e8ff17e47,
  0x65b000d4cceef639565008b15a16c9c74cf,
  0x65c000d4cceef6395650088d233d8b7c579,
  0x65d000d4cceef639565008042bd219c0303,
  0x65e000d4cceef639565008947d0b571b72d,
  0x65f0042800aacf1eaf900a3e16e9438e1f7,
  0x6600042800aacf1eaf900b5b0c74d875171,
  0x6610042800aacf1eaf9007c1868fd3c9e35,
  0x662005f4c39d5174497007c1868fd3c9e35,
  0x6630025b3db84cc915b008ffcebc8bac016,
  0x664006db2516929f1660047fe75e45d600b,
  0x6650036d928b494f8b300b5b0c74d875171,
  0x66600148e8e55042a03007ed79e98f258be,
  0x6670053fa5da17d5662003f6bcf4c792c5f,
  0x668006968fe1d37d790003f6bcf4c792c5f,
  0x669003e8bbd25c2d5340054da6fc833ad8d,
  0x66a001f45de92e16a9a0074204e5b151827,
  0x66b000fa2ef4970b54d0074204e5b151827,
  0x66c0041e19ed242e6ba0074204e5b151827,
  0x66d0070ca6cae9506a100229bc03f617c20,
  0x66e0070ca6cae9506a100114de01fb0be10,
  0x66f0079715cbe6d65a90008a6f00fd85f08,
  0x670005f7c8c8ee44891002b42b04f39db28,
  0x67100751de4b68136250015a158279ced94,
  0x672007fee90ca4facef000ad0ac13ce76ca,
  0x673006a4d38a2b2bf5b0036135c630851f2,
  0x674006a4d38a2b2bf5b001b09ae318428f9,
  0x6750042ab736a1b742a005db5219b9f9d23,
  0x676007f0adb50ad5738005db5219b9f9d23,
  0x67700064c0b8389911c0080e45b740b3bc1,
  0x67800032605c1c4c88e0080e45b740b3bc1,
  0x67900019302e0e264470080e45b740b3bc1,
  0x67a0007df0e646bf5630082775e54eda008,
  0x67b0050f9cbf34ebaca00491abd8ee2c567,
  0x67c00287ce5f9a75d65009a148982318031,
  0x67d00287ce5f9a75d6500a31535ea29080a,
  0x67e00287ce5f9a75d6500a28466e8633ecf,
  0x67f00287ce5f9a75d65008dfd8c6aacab7f,
  0x68000287ce5f9a75d65008f1f2a6e383df5,
  0x68100287ce5f9a75d6500844aee2d972b12,
  0x68200287ce5f9a75d6500931f430a1a5053,
  0x68300287ce5f9a75d6500864afa7b883441,
  0x6840044258364bc9eb80042257716cb9589,
  0x685002212c1b25e4f5c00864afa7b883441,
  0x68600110960d92f27ae00864afa7b883441,
  0x68700552ee43debc6660042257716cb9589,
  0x688002a97721ef5e333006cbce935c178bc,
  0x6890060f5e6b9d69f9100365e749ae0bc5e,
  0x68a0060f5e6b9d69f91004dec7992b66eb4,
  0x68b0060f5e6b9d69f910026f63cc95b375a,
  0x68c0060f5e6b9d69f91007471051e843b3e,
  0x68d0060f5e6b9d69f91003a38828f421d9f,
  0x68e0026bd642a9481f2008824fc21f88c53,
  0x68f00135eb2154a40f9008824fc21f88c53,
  0x69000135eb2154a40f90087dded5b802991,
  0x6910060d97a6a7344dd004dc1d71ba166a6,
  0x6920060d97a6a7344dd0026e0eb8dd0b353,
  0x6930043dd32fc21fc18006abe1e89f2af6b,
  0x694001cfc476e5148c500886c0ae870ef15,
  0x695001cfc476e5148c5008cacb80803ad77,
  0x6960054d47fbb2a7b1e0037d8384cd93259,
  0x697002a6a3fdd953d8f008cacb80803ad77,
  0x698004766874be6865400454630bc1d2723,
  0x6990023b343a5f3432a008cacb80803ad77,
  0x69a0011d9a1d2f9a195008cacb80803ad77,
  0x69b005940291ee027e900571fd28f16c8b8,
  0x69c005940291ee027e9002b8fe9478b645c,
  0x69d006f081dc2a5da170015c7f4a3c5b22e,
  0x69e006f081dc2a5da17006ce7c732dc7ae6,
  0x69f006f081dc2a5da17003673e3996e3d73,
  0x6a00052be00ae0a0bc5003673e3996e3d73,
  0x6a10052be00ae0a0bc5004498f223bc249c,
  0x6a2006f081dc2a5da1700284ed50f20564a,
  0x6a3006f081dc2a5da170014276a87902b25,
  0x6a4004197c4251b029e0055bf2eacab2dc3,
  0x6a5002d70599d8ad7790092356e435baf32,
  0x6a6002d70599d8ad77900768b10bf38af12,
  0x6a70068b5e1fd272f02003b45885f9c5789,
  0x6a8002d70599d8ad77900a00a9d056d2f42,
  0x6a9002d70599d8ad779007d75a820416f1a,
  0x6aa006c2b2dadab8f06003ebad41020b78d,
  0x6ab0074d06ae6f67f10003ebad41020b78d,
  0x6ac00523b7601cabee8003ebad41020b78d,
  0x6ad0067d88f11061701003ebad41020b78d,
  0x6ae005349b190936747003ebad41020b78d,
  0x6af005349b190936747003fc90f9ee95fec,
  0x6b0005349b19093674700c677eaf09b7e84,
  0x6b1005349b19093674700633bf5784dbf42,
  0x6b20043576da8d90f4c009312c12f7cc733,
  0x6b30021abb6d46c87a6009312c12f7cc733,
  0x6b40010d5db6a3643d300823ce5c5468360,
  0x6b50010d5db6a3643d3008475e08b7c50fc,
  0x6b600542d49130f531f00304897786cfddd,
  0x6b700542d49130f531f00423af045be287e,
  0x6b800754ac135ee675e00211d7822df143f,
  0x6b90011f258cd512aa10081aea713b90ff9,
  0x6ba005bc2d8bdd647ee0049d07ff0851d4d,
  0x6bb002de16c5eeb23f700a59358ae5b653b,
  0x6bc0051c61df98d79390049d07ff0851d4d,
  0x6bd004dcb4ef5094b430049d07ff0851d4d,
  0x6be004bcde772c734480049d07ff0851d4d,
  0x6bf0025e6f3b9639a2400959e67634c5195,
  0x6c00073b242ae6ce5670049d07ff0851d4d,
  0x6c1005ec1614f79015a0049d07ff0851d4d,
  0x6c2002f60b0a7bc80ad00a891e13ffe1ea7,
  0x6c30068b466dac37441001a6fcf48c89ca0,
  0x6c40075ec4e7f27c291000d37e7a4644e50,
  0x6c5007c88425159e9b900069bf3d2322728,
  0x6c6007c88425159e9b900210bc31afac3c8,
  0x6c7007c88425159e9b9001085e18d7d61e4,
  0x6c8007c88425159e9b9000842f0c6beb0f2,
  0x6c9007c88425159e9b900042178635f5879,
  0x6ca006c0260c3dc87d50014a759f0dcba5d,
  0x6cb007e4aeb2cf2d0300014a759f0dcba5d,
  0x6cc003f2575967968180092f2451dcf8a8d,
  0x6cd003f25759679681800a66a374ac90be9,
  0x6ce001f92bacb3cb40c0086d77c7f8c57dd,
  0x6cf000fc95d659e5a060086d77c7f8c57dd,
  0x6d0004eeed2fc17c21e00a66a374ac90be9,
  0x6d1002777697e0be10f00a66a374ac90be9,
  0x6d2002777697e0be10f008e6839e276578b,
  0x6d3002777697e0be10f0082673b2e4cfd5c,
  0x6d4001b766ac9e286e0008e6839e276578b,
  0x6d5000dbb3564f143700080ad047d85141b,
  0x6d60006dd9ab278a1b80080ad047d85141b,
  0x6d7002254057c5b289800878a9f2ffdb5d3,
  0x6d800112a02be2d944c00878a9f2ffdb5d3,
  0x6d9000895015f16ca2600878a9f2ffdb5d3,
  0x6da002ae906db71f2be00878a9f2ffdb5d3,
  0x6db001574836db8f95f00878a9f2ffdb5d3,
  0x6dc0063f414bc9450f8004e7f914edb5799,
  0x6dd006b4691249cdedb00390b0de1225e3a,
  0x6de006b4691249cdedb001c8586f0912f1d,
  0x6df007cf119ebb96536001c8586f0912f1d,
  0x6e0003e788cf5dcb29b009976a0dc4a9453,
  0x6e10070b4103957333c001c8586f0912f1d,
  0x6e200716515fdcdf7d8001c8586f0912f1d,
  0x6e30038b28afee6fbec00553811ef782b09,
  0x6e400710c931b92958a00553811ef782b09,
  0x6e5003886498dc94ac500553811ef782b09,
  0x6e60046df2dbea0bae700553811ef782b09,
  0x6e7003886498dc94ac5008042be81fe7b6f,
  0x6e8003886498dc94ac5005c648407e3e31a,
  0x6e90066b88b91bb3c52002e324203f1f18d,
  0x6ea00618e87cccf8fb6002e324203f1f18d,
  0x6eb003886498dc94ac500573a8042f8367e,
  0x6ec00642389af456604002b9d40217c1b3f,
  0x6ed003211c4d7a2b302005daf04f91ece41,
  0x6ee003eface43efe288005daf04f91ece41,
  0x6ef007d2c6c1b16bf85005daf04f91ece41,
  0x6f0006d6db88a1ac6e3005daf04f91ece41,
  0x6f1000fbeb390fbf8a20089c65df8eea1fb,
  0x6f20007df59c87dfc510081e7043070a5aa,
  0x6f30007df59c87dfc510087cdaa24a631ae,
  0x6f40007df59c87dfc51007b02498dc4ff0e,
  0x6f50007df59c87dfc510086d30afed3dbf9,
  0x6f60007df59c87dfc5100865400a798cead,
  0x6f70007df59c87dfc510086147b7bfb4807,
  0x6f80007df59c87dfc51008712902a71629f,
  0x6f90007df59c87dfc51008673c33d679200,
  0x6fa0007df59c87dfc51008234afe2a3ab88,
  0x6fb00275cc0ea75ed950091f363739fa42a,
  0x6fc00705672a445bfaa0048f9b1b9cfd215,
  0x6fd00382b395222dfd5008124eb0bf2b1ea,
  0x6fe00382b395222dfd50078bdaed81c38ca,
  0x6ff002fc3fd1e4c66b500898c273fc92b0a,
  0x70000748a10be30fc3a0044c6139fe49585,
  0x701003a45085f187e1d00b950245e1591bf,
  0x702006a09057d64e4d2004f471ee0b0aced,
  0x70300350482beb2726900844ba19f631f56,
  0x70400350482beb2726900772a538e640214,
  0x70500350482beb2726900abaf8bd260771c,
  0x70600350482beb27269008adc48a7e2adf7,
  0x70700350482beb272690094f4e871fd0299,
  0x7080064fcb59857ba81002ff832d9a54818,
  0x7090064fcb59857ba810025df930f8af376,
  0x70a0064fcb59857ba8100dce934b874eebd,
  0x70b0064fcb59857ba81003bf63f900e9a1e,
  0x70c006e715e829241480012efc987c579bb,
  0x70d0070080bd8998dd50012efc987c579bb,
  0x70e00417beab02f83c80095e79ee824814b,
  0x70f0070080bd8998dd500675b7dbfba773e,
  0x7100070080bd8998dd50033adbedfdd3b9f,
  0x7110051dae55c3b64ba0033adbedfdd3b9f,
  0x7120028ed72ae1db25d008588a43c18a059,
  0x7130076a0dbd89831c1000ac04c31bf8942,
  0x714007c0101f177f6620005602618dfc4a1,
  0x7150063a18ba6da5b98006901b1bfba2039,
  0x716005381195c3b0db5006e61d7d899e4da,
  0x717005381195c3b0db5003730ebec4cf26d,
  0x718007c89ee9090f27e003730ebec4cf26d,
  0x719000e2816b7f70da4008663b86dda33b9,
  0x71a0007140b5bfb86d2008663b86dda33b9,
  0x71b00038a05adfdc3690082d9b2bfdc7050,
  0x71c00038a05adfdc3690081213f9bc5f58a,
  0x71d0011b21c65f4d10d0084ab4549c3b8f3,
  0x71e004b2eb0d7dc450000397c9471e773f3,
  0x71f002597586bee22800084ab4549c3b8f3,
  0x720005ce0cd3dd1160d005f13ecddd59673,
  0x721005dfa5d0dd3564000bd0e49eba8ecb3,
  0x722002efd2e86e9ab20008e111b64bf4193,
  0x723007f28db01b3c41a0001198fd0024033,
  0x724007578f451482bd000ec0b78729297d3,
  0x725003abc7a28a415e800b14efe49ee81eb,
  0x726001d5e3d14520af40093f0c1359c76f7,
  0x727001c44ad444fcac100769284214a6c03,
  0x72800496b98b2cd1b6200bffe1cd4178765,
  0x7290024b5cc59668db1009b48507ab0f9b4,
  0x72a0040fa799db6587200769284214a6c03,
  0x72b00207d3ccedb2c3900970fc0f025983c,
  0x72c006c051d46edf857004b87e07812cc1e,
  0x72d006c051d46edf8570035980a83941391,
  0x72e006c051d46edf8570050ce93e54105f4,
  0x72f006c051d46edf85700286749f2a082fa,
  0x730006c051d46edf857001433a4f950417d,
  0x7310073dd09ef107a72001433a4f950417d,
  0x73200768973e37901b0001433a4f950417d,
  0x7330077dfa8ddad454f001433a4f950417d,
  0x73400271114f86c3f5b00650238de914771,
  0x735004609a6eb7ec36600ab0bdfca100ad7,
  0x736002304d375bf61b30088070c5450a924,
  0x737007126fd6697e069001ef891f312840b,
  0x73800480fc7acd5323a006708599fe7b645,
  0x739002407e3d66a991d006708599fe7b645,
  0x73a0045881ebb2927b100ac90785b10ddf6,
  0x73b00268f8cc816a3a6006708599fe7b645,
  0x73c007a502003f30818006708599fe7b645,
  0x73d003d281001f9840c00a43069a1e13a51,
  0x73e001347c6640b51d3008442568579b3d1,
  0x73f001347c6640b51d300859c61a0e4784b,
  0x740004c72140277e50f00392a4d9e6c933c,
  0x741006066dff438991f00392a4d9e6c933c,
  0x742007cfc06c36ee2bd001c9526cf36499e,
  0x743007cfc06c36ee2bd000e4a93679b24cf,
  0x744006eb1735bd3bdee004774e10607b80b,
  0x745007ecd9ab3f19702004774e10607b80b,
  0x746003f66cd59f8cb810086dbae6000838c,
  0x747003f66cd59f8cb8100436dd7300041c6,
  0x7480072b87d31db343300436dd7300041c6,
  0x7490072b87d31db34330021b6eb980020e3,
  0x74a006bee9ffcedcb6e0021b6eb980020e3,
  0x74b002880c8cced89a8008011d12b131ac7,
  0x74c001440646676c4d4008011d12b131ac7,
  0x74d000a2032333b626a008011d12b131ac7,
  0x74e0032a0fb0028ec12009e7267c4c54205,
  0x74f0019507d80147609008521ea44b0cbfc,
  0x750005be172a26cdc07004290f5225865fe,
  0x751005be172a26cdc0700d90b5fd605eb0d,
  0x7520053e97591551f11007d29ed33990f06,
  0x7530053e97591551f11003e94f699cc8783,
  0x75400493f361590d34a003e94f699cc8783,
  0x755000aaa3f7bc44bc700839a99c8f59d58,
  0x756000aaa3f7bc44bc70081cac9cb149556,
  0x757005639e3dd12e239004b8fa4614e9672,
  0x7580060e42358d72e00002b90e5ee01b31d,
  0x75900307211ac6b9700008c750946d8e11d,
  0x75a00183908d635cb80008c750946d8e11d,
  0x75b000c1c846b1ae5c000805884dbbdfb5d,
  0x75c003c8e9617867cc00098918db1f3c6dd,
  0x75d001e474b0bc33e600098918db1f3c6dd,
  0x75e000f23a585e19f3000896de82c1227ad,
  0x75f004bb23b9d681bf000b6d8d8bdb7053d,
  0x7600025d91dceb40df80090ffbaef02f745,
  0x7610012ec8ee75a06fc0090ffbaef02f745,
  0x762005e9eca84c222ec00dcb1f68c6b1335,
  0x763002f4f654261117600ad62914a0a01bf,
  0x7640017a7b2a13088bb0095badea8d97904,
  0x7650017a7b2a13088bb007a2cd496cdcdf8,
  0x7660076467d25f2aba7007a2cd496cdcdf8,
  0x7670076467d25f2aba7003d166a4b66e6fc,
  0x7680076467d25f2aba7001e8b3525b3737e,
  0x7690057bb48003f38290040fcc1bc42094d,
  0x76a0057bb48003f3829004c5c04de40a0bb,
  0x76b00520ba66f3fec72004c5c04de40a0bb,
  0x76c005d6ae9913e83e00040fcc1bc42094d,
  0x76d002eb574c89f41f0006fb23684e14b3d,
  0x76e00175aba644fa0f8006fb23684e14b3d,
  0x76f000bad5d3227d07c007b5f93b7091bb9,
  0x770003a62d1fac7126c007b5f93b7091bb9,
  0x771001d3168fd638936007b5f93b7091bb9,
  0x772000e98b47eb1c49b007b5f93b7091bb9,
  0x7730048fb867978d707004f95763af3cde8,
  0x7740070c64196f2bdfb0027cabb1d79e6f4,
  0x7750070c64196f2bdfb0013e55d8ebcf37a,
  0x77600351628eabbe38d00637ad3c9b0c162,
  0x7770066d392cf94443e0031bd69e4d860b1,
  0x778003369c967ca221f006527334ca282d0,
  0x7790065fd630e1b638700329399a6514168,
  0x77a0065fd630e1b63870030e73a235f7ffa,
  0x77b0065fd630e1b6387007e71001fcb2384,
  0x77c0065fd630e1b6387003f38800fe591c2,
  0x77d00787d97c1fdd8e20018739d11afbffd,
  0x77e006d2606045e6c6b0018739d11afbffd,
  0x77f0042ccd18b071634009e0d4027bdec65,
  0x7800042ccd18b07163400bd0ee2e375d625,
  0x78100216668c5838b1a009ba87a1df24b0b,
  0x7820010b33462c1c58d008af545bb30857e,
  0x7830010b33462c1c58d00884774689f58f3,
  0x78400538005edc8dbc10034c76e7ad67d32,
  0x78500538005edc8dbc100c163c318fcf61b,
  0x78600538005edc8dbc10036f1de959a0d2d,
  0x78700022a701ac38ffb0081c8241854a902,
  0x788004538f241b1747700430e8226ede47c,
  0x789004538f241b1747700abf92596d9db2c,
  0x78a004538f241b1747700a7a4456152bb36,
  0x78b004538f241b1747700990b14f25ad212,
  0x78c004538f241b174770091be7cbadedd80,
  0x78d004538f241b17477008e18309f20e337,
  0x78e003dec5a0a357fe5008e18309f20e337,
  0x78f0066024554ab318e002815eb4a75b1a9,
  0x79000330122aa5598c7008e18309f20e337,
  0x791003dec5a0a357fe500832cf93f40fc19,
  0x792003dec5a0a357fe500608ca9a4bb3dff,
  0x793004f3c81d7785ef200608ca9a4bb3dff,
  0x794006a888c472820bd00608ca9a4bb3dff,
  0x79500658a9af5f1af5e00608ca9a4bb3dff,
  0x7960032c54d7af8d7af00608ca9a4bb3dff,
  0x7970049a8fb8fda0ad700608ca9a4bb3dff,
  0x798004ea6ece1107c3600608ca9a4bb3dff,
  0x7990027537670883e1b00608ca9a4bb3dff,
  0x79a0043f0100aa1be0d00608ca9a4bb3dff,
  0x79b00320a5346f6fc4400608ca9a4bb3dff,
  0x79c007991d34836bc2100608ca9a4bb3dff,
  0x79d006d0f3e7678fd1000608ca9a4bb3dff,
  0x79e000c8294d1bdbf110084770946e7501f,
  0x79f000c8294d1bdbf11008709b7250742ed,
  0x7a0000c8294d1bdbf11007bd07942597d43,
  0x7a1000c8294d1bdbf1100832db257d756b8,
  0x7a2000c8294d1bdbf11008023c144a066b1,
  0x7a3000c8294d1bdbf110084e01323e3ce36,
  0x7a4004ef29e63afa62c0042700991f1e71b,
  0x7a5005b7533356d653d00d3d2b187937462,
  0x7a6005b7533356d653d0069e958c3c9ba31,
  0x7a70062af45fc9b8fb700cc989ec06549e8,
  0x7a8005b7533356d653d00db0cc44ec19edc,
  0x7a9005b7533356d653d00c8fb955cce34ab,
  0x7aa005b7533356d653d0036c33113b067b7,
  0x7ab003752d5518690db0048d46005a3d1e8,
  0x7ac005bbd05545879cf00246a3002d1e8f4,
  0x7ad006df21d55c16e49001235180168f47a,
  0x7ae00770ca95675e88600091a8c00b47a3d,
  0x7af0052a27953a3ff92002d84bc03866331,
  0x7b00056d5f8ad5862fa002d84bc03866331,
  0x7b1002b6afc56ac317d00845ab4b0dec62b,
  0x7b20029513ca9d1ffc9008674745db8f7df,
  0x7b30029513ca9d1ffc90057e2d883c57bd4,
  0x7b4005542a8ebb4bdb3002bf16c41e2bdea,
  0x7b50026b10d11c141a8005a83081bd639f5,
  0x7b60013588688e0a0d4006ddb8ea4b6dac9,
  0x7b7007787d1e9272b33006ddb8ea4b6dac9,
  0x7b8007787d1e9272b330072b1b046ef02fe,
  0x7b900182ea82b18c9090069056d027eb294,
  0x7ba004cb15eac582253003482b6813f594a,
  0x7bb0066f2b9ecf7cef8001a415b409faca5,
  0x7bc003270036bb875ae008346c8431e5f39,
  0x7bd00193801b5dc3ad7008346c8431e5f39,
  0x7be00677766b25987df004e3f64fc7d4d08,
  0x7bf007e18088d4d2633004e3f64fc7d4d08,
  0x7c0007e18088d4d263300271fb27e3ea684,
  0x7c1007e18088d4d263300138fd93f1f5342,
  0x7c2007e18088d4d26330009c7ec9f8fa9a1,
  0x7c30060c042ae9e29500030e79f1dce5025,
  0x7c4006147c0751d64cd0030e79f1dce5025,
  0x7c50079ff4ee7442a9e0030e79f1dce5025,
  0x7c600183010aba78a540093c5d8e6696769,
  0x7c7000c180855d3c52a0087add09095a23f,
  0x7c800060c042ae9e2950081a1cc65abbfaa,
  0x7c900060c042ae9e29500801f9791c8a044,
  0x7ca00060c042ae9e295008293f9a0f10c89,
  0x7cb00060c042ae9e2950080c82893105161,
  0x7cc00060c042ae9e2950085ee443709d662,
  0x7cd00060c042ae9e295008379e227e16a1d,
  0x7ce00060c042ae9e29500813b1cd688802b,
  0x7cf00060c042ae9e29500801bba2ddc0b32,
  0x7d0001e3c14d6916ce9008627be58c5edc7,
  0x7d100706dfe6e3d1a41005231e997abad58,
  0x7d200706dfe6e3d1a41002918f4cbd5d6ac,
  0x7d300475509a2674395003ed2b4b65eaa32,
  0x7d400475509a26743950066be63fd9698ae,
  0x7d5007ab43ba1328fec00335f31fecb4c57,
  0x7d6003d5a1dd09947f60070b94fcf64944d,
  0x7d70009faebd1cdfb9f008918ec2450b23f,
  0x7d80009faebd1cdfb9f00856b72e5e33ca9,
  0x7d90051ae1b2da697c30047b32f5bd89c24,
  0x7da007999ca74de863f0047b32f5bd89c24,
  0x7db007999ca74de863f0023d997adec4e12,
  0x7dc007999ca74de863f0011eccbd6f62709,
  0x7dd0043d366effc112400599ffb32cec32d,
  0x7de007b89aeaacccbbf00599ffb32cec32d,
  0x7df006a94d4eecdc77600599ffb32cec32d,
  0x7e000354a6a7766e3bb00599ffb32cec32d,
  0x7e100791dd16762f4df00245590bb67df72,
  0x7e200791dd16762f4df00122ac85db3efb9,
  0x7e3007c24a5fba7417700122ac85db3efb9,
  0x7e4007c24a5fba74177005ad5e9d483ae9d,
  0x7e5007c24a5fba74177006b7d47e815780a,
  0x7e6007c24a5fba741770035bea3f40abc05,
  0x7e7007c24a5fba7417700146fe7cce7292b,
  0x7e8007c24a5fba7417700484a46e4473551,
  0x7e9006237766ff73b6400484a46e4473551,
  0x7ea00311bbb37fb9db200aa81bd543e70b5,
  0x7eb0019ed2f8bb00613008dd5e9e929fc2e,
  0x7ec007ac5540bf50a3d0060d8248045042a,
  0x7ed007ac5540bf50a3d00306c1240228215,
  0x7ee0019ed2f8bb00613008a679d11ec721d,
  0x7ef0019ed2f8bb00613008604c5662e483e,
  0x7f0005cef923ec72a3200430262b317241f,
  0x7f10076dcc1ca773045006c1795da7e422b,
  0x7f200717a2bd27ab938006c1795da7e422b,
  0x7f30038bd15e93d5c9c00a4d4abc3bb9ec7,
  0x7f4001c5e8af49eae4e00887620cf1cf079,
  0x7f5003e1fabe139d3a9004fb90ae5df93dd,
  0x7f60046ec5b638cb3c30096a566496c47a0,
  0x7f70046ec5b638cb3c300923f0e8842d793,
  0x7f8007dd3f5b554c02b00046657c129700d,
  0x7f9007eb5f34b8338d200046657c129700d,
  0x7fa0059c1082cba3cb700b7e8681a9de97b,
  0x7fb0050f458aa675c9d00b7e8681a9de97b,
  0x7fc0050f458aa675c9d00337a07b81b466f,
  0x7fd004237303141518600b7e8681a9de97b,
  0x7fe00211b9818a0a8c30096ccd001fd40b8]

set_option maxRecDepth 100000 in
theorem dCerts3_ok : checkFrom (-1076) dCheck 1536 dCerts3 = true := by decide +kernel

end Grisu.Ryu
