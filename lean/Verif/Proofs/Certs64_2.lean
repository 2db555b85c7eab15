import Verif.Proofs.ExpTable

/-! # Certificates for the binary64 exponents -61 to 450

Generated: entry `i * 2^128 + b * 2^64 + d` holds the denominators of the Stern-Brocot neighbours for
the exponent `min_exponent + i`. -/

namespace Grisu

def certs64_2 : List Nat := [
  0x4000000000800000000008000061a3adff3,
  0x4010000000400000000008000021a3adff3,
  0x40200000004000000000080000283265fbf,
  0x40300000002000000000080000083265fbf,
  0x40400000001000000000080000083265fbf,
  0x40500000000800000000080000003265fbf,
  0x4060000000080000000008000000fbfdebb,
  0x4070000000040000000008000000fbfdebb,
  0x4080000000020000000008000000fbfdebb,
  0x4090000000020000000008000000ebf59a7,
  0x40a0000000010000000008000000ebf59a7,
  0x40b00000000080000000080000006bf59a7,
  0x40c00000000080000000080000001bcc043,
  0x40d00000000040000000080000001bcc043,
  0x40e00000000020000000080000001bcc043,
  0x40f00000000010000000080000000bcc043,
  0x41000000000010000000080000000afc14f,
  0x411000000000080000000800000002fc14f,
  0x412000000000040000000800000002fc14f,
  0x413000000000040000000800000002ec68b,
  0x414000000000020000000800000000ec68b,
  0x415000000000010000000800000000ec68b,
  0x4160000000000100000008000000009e0b7,
  0x4170000000000080000008000000001e0b7,
  0x4180000000000040000008000000001e0b7,
  0x4190000000000020000008000000001e0b7,
  0x41a00000000000200000080000000016393,
  0x41b00000000000100000080000000006393,
  0x41c00000000000080000080000000006393,
  0x41d000000000000800000800000000071df,
  0x41e000000000000400000800000000031df,
  0x41f000000000000200000800000000011df,
  0x4200000000000002000008000000000195b,
  0x4210000000000001000008000000000095b,
  0x4220000000000000800008000000000015b,
  0x4230000000000000400008000000000015b,
  0x424000000000000040000800000000002c7,
  0x425000000000000020000800000000000c7,
  0x426000000000000010000800000000000c7,
  0x427000000000000010000800000000000e3,
  0x42800000000000000800080000000000063,
  0x42900000000000000400080000000000023,
  0x42a0000000000000040008000000000002f,
  0x42b0000000000000020008000000000000f,
  0x42c0000000000000010008000000000000f,
  0x42d00000000000000080080000000000007,
  0x42e00000000000000080080000000000003,
  0x42f00000000000000040080000000000003,
  0x43000000000000000020080000000000001,
  0x43100000000000000020080000000000001,
  0x43200000000000000010080000000000001,
  0x43300000000000000010080000000000001,
  0x43400000000000000010080000000000001,
  0x43500000000000000010080000000000001,
  0x43600000000000000010080000000000001,
  0x43700000000000000010080000000000001,
  0x43800000000000000010080000000000001,
  0x43900000000000000010080000000000001,
  0x43a00000000000000010080000000000001,
  0x43b00000000000000050080000000000003,
  0x43c00000000000000050080000000000005,
  0x43d00000000000000050080000000000001,
  0x43e0000000000000019008000000000000b,
  0x43f00000000000000190080000000000009,
  0x44000000000000000190080000000000008,
  0x441000000000000007d008000000000003a,
  0x442000000000000007d008000000000002d,
  0x443000000000000007d0080000000000065,
  0x444000000000000007d0080000000000004,
  0x4450000000000000271008000000000017b,
  0x44600000000000002710080000000000189,
  0x44700000000000002710080000000000190,
  0x4480000000000000c350080000000000401,
  0x4490000000000000c35008000000000053d,
  0x44a0000000000000c3500800000000005db,
  0x44b0000000000003d090080000000001e45,
  0x44c0000000000003d0900800000000036fe,
  0x44d0000000000003d0900800000000024d6,
  0x44e0000000000003d090080000000001bc2,
  0x44f000000000001312d0080000000001bc2,
  0x450000000000001312d008000000000ce53,
  0x451000000000001312d0080000000008f05,
  0x452000000000005f5e10080000000008f05,
  0x453000000000005f5e1008000000001a08b,
  0x454000000000005f5e1008000000002294e,
  0x45500000000001dcd6500800000000e1510,
  0x45600000000001dcd6500800000000b5e81,
  0x45700000000001dcd65008000000018e9ec,
  0x45800000000001dcd65008000000010c8ef,
  0x45900000000009502f9008000000010c8ef,
  0x45a00000000009502f900800000001b9f23,
  0x45b00000000009502f90080000000210a3d,
  0x45c0000000002e90edd00800000014b102f,
  0x45d0000000002e90edd0080000000b8c2c3,
  0x45e0000000002e90edd00800000006f9c0d,
  0x45f000000000e8d4a5100800000006f9c0d,
  0x460000000000e8d4a51008000000334178f,
  0x461000000000e8d4a510080000004965550,
  0x462000000000e8d4a51008000000c8e1959,
  0x4630000000048c273950080000046c3429d,
  0x4640000000048c273950080000034eb3528,
  0x4650000000048c2739500800000079df4a3,
  0x466000000016bcc41e90080000050606838,
  0x467000000016bcc41e90080000015588e2b,
  0x468000000016bcc41e900800000adbac219,
  0x469000000071afd498d00800003855345eb,
  0x46a000000071afd498d00800006a91ce3b4,
  0x46b000000071afd498d00800004ad830dd2,
  0x46c000000071afd498d00800003afb622e1,
  0x46d0000002386f26fc10080000acab36c6e,
  0x46e0000002386f26fc1008000232a437863,
  0x46f0000002386f26fc10080001d9692467d,
  0x470000000b1a2bc2ec500800064a47725ff,
  0x471000000b1a2bc2ec5008000a8e8836c8e,
  0x472000000b1a2bc2ec500800072392b7873,
  0x473000003782dace9d900800072392b7873,
  0x474000003782dace9d9008000afb2dd95c8,
  0x475000003782dace9d90080028a868d195f,
  0x476000003782dace9d9008001bbd98e663e,
  0x47700001158e460913d008008ac34e839f0,
  0x47800001158e460913d00800d7922ec3f25,
  0x47900001158e460913d0080073327bdf921,
  0x47a000056bc75e2d63100803b3dd4dfacd8,
  0x47b000056bc75e2d631008026c1f2e7f899,
  0x47c000056bc75e2d631008047e23cdd8992,
  0x47d0001b1ae4d6e2ef50081a2d41468e256,
  0x47e0001b1ae4d6e2ef500813149888f6989,
  0x47f0001b1ae4d6e2ef500801fad1beb95a8,
  0x4800001b1ae4d6e2ef500806fb60c50c332,
  0x481000878678326eac90082216459bef227,
  0x482000878678326eac9008097ba848359f7,
  0x483000878678326eac900884b4d1d0c78a8,
  0x484002a5a058fc295ed0090c3b4a0336371,
  0x485002a5a058fc295ed0087e8e2a7bd929c,
  0x486002a5a058fc295ed0098a87c7363f528,
  0x487006573a4eb2b8e66006e4e76e3a15f3b,
  0x4880032b9d27595c73300a108495937266e,
  0x4890032b9d27595c73300508424ac9b9337,
  0x48a00419efb9118ad35009223203db4406c,
  0x48b0023d4a95a12e131009223203db4406c,
  0x48c006ce63978ed0167004911901eda2036,
  0x48d006ce63978ed0167002488c80f6d101b,
  0x48e006a15bea38445bf002488c80f6d101b,
  0x48f006bd80b68e5bb08002488c80f6d101b,
  0x490007efd95d34cfdba002488c80f6d101b,
  0x491007efd95d34cfdba0037ae5279d452cd,
  0x492003f7ecae9a67edd00b6abe84d215087,
  0x493007b15599b63e7b2003b968eb1bd68d5,
  0x494003d8aaccdb1f3d900b6abe84d215087,
  0x495003d8aaccdb1f3d900aedb6fdd4f2477,
  0x496003d8aaccdb1f3d900b3bdbb23328001,
  0x497003d8aaccdb1f3d900b62ee0c6242dc6,
  0x498003d8aaccdb1f3d900ac6a4a3a5d76b2,
  0x499003d8aaccdb1f3d90093bfd1eae0af32,
  0x49a003d8aaccdb1f3d900876a95c3224b72,
  0x49b0024e0347e352c5900876a95c3224b72,
  0x49c0068957f5fc652120043b54ae19125b9,
  0x49d0078000a91744ec20043b54ae19125b9,
  0x49e007e0b28ac4d81bb0043b54ae19125b9,
  0x49f0060e039c6ef53ba0043b54ae19125b9,
  0x4a000742567c508cf960043b54ae19125b9,
  0x4a1007dc7fec4158d840043b54ae19125b9,
  0x4a200573da2c7e295cc0043b54ae19125b9,
  0x4a3006f541c4582709f0043b54ae19125b9,
  0x4a4005984b39389cb2c0043b54ae19125b9,
  0x4a5005984b39389cb2c0045fc5bad385b19,
  0x4a6002cc259c9c4e596009f810f40c22645,
  0x4a70016612ce4e272cb00891fe25bdfb37a,
  0x4a8006fe5e0786c3df7002f9b2ec855e84e,
  0x4a9006fe5e0786c3df70017cd97642af427,
  0x4aa006fe5e0786c3df70043d9bbee4b990f,
  0x4ab0059dfce335beb830043d9bbee4b990f,
  0x4ac0016061245105274008d0a0739e71737,
  0x4ad000b03092288293a008206fe175eedfd,
  0x4ae000581849144149d008206fe175eedfd,
  0x4af001b8796d6546711008d0a0739e71737,
  0x4b0001b8796d6546711008b57fcb4c68d46,
  0x4b1007cbb2c070c14c50061339530b7adb4,
  0x4b2005f818aab9723c3002a2467840edf92,
  0x4b3007493be6d9e938c00151233c2076fc9,
  0x4b400646e46bade295800ddeec137c3c279,
  0x4b5003237235d6f14ac00abb79dda54adcd,
  0x4b6006c8102943e5e72004749571f768475,
  0x4b7007d89d86995b3ae004749571f768475,
  0x4b8003ec4ec34cad9d700860e4354415e4c,
  0x4b9007e776cdd35979f0008846aeaabaa9e,
  0x4ba007e776cdd35979f000442357555d54f,
  0x4bb007cfbbd93f760c9000442357555d54f,
  0x4bc0070351d33f5e0dc00154b0b4aad2a8b,
  0x4bd004d6599e4a81af900b0163f13fd607d,
  0x4be004d6599e4a81af900cc238660fad8b4,
  0x4bf004d6599e4a81af9006611c3307d6c5a,
  0x4c00003611e012826d6007ebdec7c52bdbb,
  0x4c10001b08f0094136b007ebdec7c52bdbb,
  0x4c20040373dbe73689300bef52a3ac6264e,
  0x4c30001b08f0094136b0080748676506539,
  0x4c40001b08f0094136b008147c4d16d1e34,
  0x4c5004fd8e96deb3ddd004e285a6d572a72,
  0x4c60054ea966fa7781e004c77cb6cc31707,
  0x4c7002a754b37d3bc0f0076ed16a496d316,
  0x4c80065ebd68a1f259a003b768b524b698b,
  0x4c9006e6c76975afc58003b768b524b698b,
  0x4ca002a754b37d3bc0f007f6db6b1d2a9d4,
  0x4cb006a2c2690bd10f9003fb6db58e954ea,
  0x4cc006a2c2690bd10f9001fdb6dac74aa75,
  0x4cd000a99dd8b5f119a008a156947893115,
  0x4ce00054ceec5af88cd0084c87a81d9a848,
  0x4cf005797f857aaf75800524b0991fb6e8b,
  0x4d000054ceec5af88cd008289c0ec91d646,
  0x4d100054ceec5af88cd0080e011ba8354bf,
  0x4d2006d7df66d95b52e00683107a7e62c61,
  0x4d30036befb36cada9700683107a7e62c61,
  0x4d40072cae533453dfb002c251dab6bc8fd,
  0x4d5004f78016f58837c00cb15208a1ccff5,
  0x4d60027bc00b7ac41be00a3591fd2708e37,
  0x4d70027bc00b7ac41be008d4192e9c26975,
  0x4d80013de005bd620df008d4192e9c26975,
  0x4d90013de005bd620df008c29cab64ea7c7,
  0x4da0013de005bd620df009088eb841dae7f,
  0x4db0013de005bd620df008dcd77037c4a4c,
  0x4dc0013de005bd620df008280bc954087c3,
  0x4dd0013de005bd620df0086c95f8c0db6ee,
  0x4de00635601cb2ea45b00d64160fb663a6a,
  0x4df00635601cb2ea45b00ce76b248e1c190,
  0x4e000635601cb2ea45b00ca915aef9f8523,
  0x4e1005f70aa71ec67ee00d25c09a223fdfd,
  0x4e2002fb85538f633f700a2a3b4692dca06,
  0x4e3002fb85538f633f700810a2f6d8d18fa,
  0x4e4003dd725764bb6e200b0c284a6834cf1,
  0x4e5001eeb92bb25db710091d6f1eb5d7180,
  0x4e60067d70bb0d494310048eb78f5aeb8c0,
  0x4e70067d70bb0d49431002475bc7ad75c60,
  0x4e80043614f35fd37d100b64cae6634cde0,
  0x4e90043614f35fd37d1009e87a669179ec1,
  0x4ea0070f47acf8a6b49002d932b998d3378,
  0x4eb0015ce239c700459008ca74b8e01eff4,
  0x4ec0015ce239c7004590071efecffe100ac,
  0x4ed004ec61a1c6084af0038f7f67ff08056,
  0x4ee007a626155408d61000d5baf471077a4,
  0x4ef007a626155408d610006add7a3883bd2,
  0x4f0007db94d2704ab4a000356ebd1c41de9,
  0x4f1004233926546738e00458a7e370a9177,
  0x4f2004233926546738e009519bfe3617ca9,
  0x4f3002119c932a339c7009519bfe3617ca9,
  0x4f4002119c932a339c7009d4d56f048cec6,
  0x4f5002119c932a339c7009d98c3ef4ec019,
  0x4f6002119c932a339c70080730fc39c36b7,
  0x4f7002119c932a339c70092f9fee0662bcd,
  0x4f80079c85fbba452d0000e92da15d944b1,
  0x4f9004b7709f3ab6e19005a09e40984b2ca,
  0x4fa00787bfbf86dc77e002d04f204c25965,
  0x4fb007b14c37edade22000e92da15d944b1,
  0x4fc006942f000f93d2400e118ba17cbbef9,
  0x4fd0034a178007c9e9200ac7742174f2067,
  0x4fe001a50bc003e4f49009226861710d11e,
  0x4ff000bbde1ea650a980077d5ca16d281d5,
  0x5000005def0f532854c007db4bb0c050721,
  0x5010002ef787a9942a60080a433869e49c7,
  0x502000ead5a64fe4d3e007ac542916bc47b,
  0x503000756ad327f269f007ac542916bc47b,
  0x50400410df7e1f5758d00bbd33a73613a08,
  0x505005e68acabf210090039b74aaf764eee,
  0x506007b445203ad3780001cdba557bb2777,
  0x50700775973b14ceaae001cdba557bb2777,
  0x508003bacb9d8a675570058885f30619cce,
  0x509001ed11480eb4de000904a3ab6a7c553,
  0x50a000f688a4075a6f00080e1b076321e63,
  0x50b0007b445203ad3780080e1b076321e63,
  0x50c0007b445203ad37800803a5adf953f87,
  0x50d0003da22901d69bc00803a5adf953f87,
  0x50e0001ed11480eb4de00803a5adf953f87,
  0x50f0009a156684988560087ee9fffd012ff,
  0x5100004d0ab3424c42b00831df4cbab4ed4,
  0x5110004d0ab3424c42b008027ac0bb39d99,
  0x5120004d0ab3424c42b008114dd45ca2711,
  0x5130018135804b7d4d70085e58879eeeb3c,
  0x5140018135804b7d4d7008b2ccc4b1ef423,
  0x5150051a01227eb647d00398cba23338fa6,
  0x516007860b81797283300398cba23338fa6,
  0x517007860b817972833001cc65d1199c7d3,
  0x518006759e7a6323fd6001cc65d1199c7d3,
  0x519001106d07164e85d008fdfd15800e71f,
  0x51a00507350e4b2e7be003f6c80734dff61,
  0x51b002839a8725973df008fdfd15800e71f,
  0x51c002839a8725973df008446655786a15e,
  0x51d0077ee5638675b14000b996c007a45c1,
  0x51e006a5cdb1e1cc48e00e053223cb3cedd,
  0x51f00352e6d8f0e624700ab24b4ada56c96,
  0x520001dfb958e19d6c50075f6471e970a4f,
  0x5210049f8ee5658708a00bfef3574ef7ad9,
  0x5220024fc772b2c3845009af2be49c34294,
  0x5230079e6655237abd9000700e19d126180,
  0x524007d66d620c0dc9900038070ce8930c0,
  0x525007f270e880574f90001c03867449860,
  0x526007f270e880574f90000e01c33a24c30,
  0x527007f234778c45fed0000e01c33a24c30,
  0x528007f9355929586050000700e19d12618,
  0x529007fcb5c9f7e1911000038070ce8930c,
  0x52a007f5b4e85acf2f900011823408adf3c,
  0x52b007fe76025f2629700008c11a0456f9e,
  0x52c007fe76025f2629700004608d022b7cf,
  0x52d007f5b4e85acf2f900015e2c10ad970b,
  0x52e007f48a84a5e68fc00015e2c10ad970b,
  0x52f007fee6b350def8300015e2c10ad970b,
  0x53000775d2e3dfd5cff00f018888ca85109,
  0x53100775d2e3dfd5cff00f59138cf5ead35,
  0x53200775d2e3dfd5cff003f1a0548b0a81b,
  0x53300775d2e3dfd5cff005b3b99c357028d,
  0x534004d8de11c8f1c1f003f1a0548b0a81b,
  0x535004653f3329fe21d003f1a0548b0a81b,
  0x5360042b6fc3da8451c003f1a0548b0a81b,
  0x5370049f0ea27977f1e0037e0175ec16e19,
  0x5380024f87513cbbf8f0081d1018658ed37,
  0x539005364bb4d125663002e6c46394696d4,
  0x53a005364bb4d125663006a9ade69b5a1cd,
  0x53b0024f87513cbbf8f00990724a2fc38a1,
  0x53c005effccdb63fc18003a0757c7983c89,
  0x53d002f7fe66db1fe0c00990724a2fc38a1,
  0x53e001a7103b9e581120069873e354a3a95,
  0x53f0076bfc0123cfb1e0069873e354a3a95,
  0x540003b5fe0091e7d8f00a4e71e3e68b824,
  0x541000d3881dcf2c089008a3949d2376d5f,
  0x542000d3881dcf2c08900809aed4b601918,
  0x543004d85f882a2cd1500404d76a5b00c8c,
  0x544004d85f882a2cd15006dacb3d57ad35b,
  0x54500624144a395c8f3002026bb52d80646,
  0x546007254a24d01cc160010135da96c0323,
  0x547007977c7cc30f2970010135da96c0323,
  0x5480059510c7958ec51005060d44f1c0faf,
  0x5490054d8f0643a7e00005060d44f1c0faf,
  0x54a002a6c78321d3f0000a539c4b3568daf,
  0x54b0004781c151e6e510083ac5f7e6e794e,
  0x54c006a0f2c7d491d8000659710682aaf2f,
  0x54d003507963ea48ec0009a9ea6a6cf3def,
  0x54e001a83cb1f52476000801adb877cf68f,
  0x54f001efbe73470b5b100659710682aaf2f,
  0x5500042497bce4db27000a7e08c3678619f,
  0x551002124bde726d9380086bbce4f518867,
  0x552001efbe73470b5b10086bbce4f518867,
  0x5530052dbdac1e11f0c0033dff38d70695b,
  0x55400296ded60f08f860086bbce4f518867,
  0x555004869d495614537003e51f9b9f04330,
  0x556006792d1725966cf001f28fcdcf82198,
  0x557006792d1725966cf0077274fe0d5779b,
  0x558006f5d10a9976f350077274fe0d5779b,
  0x5590057fe5303dd5603007ef18f18138001,
  0x55a006b77f10df86b02007ef18f18138001,
  0x55b0035bbf886fc358100b4ad879f0fb582,
  0x55c0057fe5303dd560300b4ad879f0fb582,
  0x55d0057fe5303dd5603005a56c3cf87dac1,
  0x55e00592a8b69b29862005a56c3cf87dac1,
  0x55f007ed8ccdde674fa00012c3865d5425f,
  0x560007fec844fc47ce600012c3865d5425f,
  0x56100700b4a7709dfaa00713782dcdf2209,
  0x562006edf1211349d4b00e39b3e1f938671,
  0x563006edf1211349d4b003a5e16072f7493,
  0x564006edf1211349d4b00549e940c3208ef,
  0x5650061bed30eb3531d00549e940c3208ef,
  0x566000d203f02814a2e0086537a05ddccb7,
  0x5670006901f8140a5170086537a05ddccb7,
  0x5680006901f8140a517008182e84ed506b6,
  0x5690020d09d8643397300881307d015abcd,
  0x56a00754270316fac13005471d2ab2c72a0,
  0x56b00754270316fac13002a38e955963950,
  0x56c00754270316fac13005dda1e7a7f727d,
  0x56d00754270316fac1300698e4755f78f48,
  0x56e00754270316fac130034c723aafbc7a4,
  0x56f00754270316fac13001a6391d57de3d2,
  0x570000bb428db781ccb0083f1d92b75731a,
  0x571004dad157132d6580041f8ec95bab98d,
  0x5720026d68ab8996b2c0068cf774e5424b9,
  0x5730070c990039b2cb9001b2261dd214e61,
  0x5740061185acd7f8bee007c3abcaaa0da4f,
  0x57500308c2d66bfc5f7007c3abcaaa0da4f,
  0x5760045f5f8f05e3d8d0066d0f1210262b9,
  0x5770056637508b0502300bd346629b2b2dc,
  0x5780056637508b0502300b4fda81d89a991,
  0x5790056637508b05023002f4d198a6cacb7,
  0x57a0079831b09e0dd79000836be0c29094b,
  0x57b0069eea2c7d221d900722560d3fb2b24,
  0x57c0069eea2c7d221d9003912b069fd9592,
  0x57d0028a53451ab82fc007a5c1ee024346f,
  0x57e0014529a28d5c17e008eaeb908f9f5ed,
  0x57f000a294d146ae0bf0084856bf48f152e,
  0x580000a294d146ae0bf00863773a115c31a,
  0x581000a294d146ae0bf008013884b0c2607,
  0x582000a294d146ae0bf008216392a3cc7dd,
  0x58300649baa5c94768b005a725d482995cc,
  0x58400649baa5c94768b0031cd28f67e12d0,
  0x58500649baa5c94768b00e21de93467f67e,
  0x58600649baa5c94768b00d5aa9ef6c871ca,
  0x58700649baa5c94768b003e4073341d9784,
  0x58800649baa5c94768b001f20399a0ecbc2,
  0x58900649baa5c94768b00d8c771863052f7,
  0x58a00265b372876df0700742bc7299bdc6c,
  0x58b0060711abd44cd3d003a15e394cdee36,
  0x58c007d7c0c87abc458001d0af1ca66f71b,
  0x58d0078d3e9d8a3d062001d0af1ca66f71b,
  0x58e003ebe0643d5e22c009136b8f402d387,
  0x58f001f5f0321eaf116009136b8f402d387,
  0x590000faf8190f5788b00818737630d5afc,
  0x591004e6d87d4cb5ab700b095bc15edc49d,
  0x592007f81a1f55c8faa0031141a209134f3,
  0x593003fc0d0faae47d500b095bc15edc49d,
  0x594006bc6f58905807b0022676346742211,
  0x5950047172c67bcd14600b095bc15edc49d,
  0x59600238b9633de68a3008d0a25e20f5bfa,
  0x597006a10a924e616a000468512f107adfd,
  0x59800238b9633de68a3008b53d97deff21f,
  0x59900238b9633de68a3009e86e440a3fea7,
  0x59a00238b9633de68a30061093d3a4133a5,
  0x59b00743c47fcf5402d003d7da70662cb02,
  0x59c00743c47fcf5402d001ebed383316581,
  0x59d00683c614344b858001ebed383316581,
  0x59e00497d8dc01352d70099ba218ff6fb85,
  0x59f00497d8dc01352d700719bd7a805272e,
  0x5a000497d8dc01352d70038cdebd4029397,
  0x5a10079f3a89e0d86ce0038cdebd4029397,
  0x5a200628500a22c71b70038cdebd4029397,
  0x5a3004da9763b1782a70038cdebd4029397,
  0x5a4007c099cdb8f9eb60038cdebd4029397,
  0x5a5007c099cdb8f9eb60023f2616ceda487,
  0x5a6003e04ce6dc7cf5b009ffbfe487d433d,
  0x5a7003e04ce6dc7cf5b00ad0534c8ea58a7,
  0x5a8007229a86f7c25030030fb97ed5ab9f1,
  0x5a9005192a02e6b6f7a0030fb97ed5ab9f1,
  0x5aa0059c4e8049071ae0030fb97ed5ab9f1,
  0x5ab002ce274024838d7008ac07ff1eb2b9f,
  0x5ac007e751430b3a8510030fb97ed5ab9f1,
  0x5ad0057b8560f0731210030fb97ed5ab9f1,
  0x5ae0057b8560f073121004459f6fe30f589,
  0x5af0057b8560f073121004e98d0c9df384a,
  0x5b00057b8560f073121007f04be73f6cd46,
  0x5b10057b8560f073121003f825f39fb66a3,
  0x5b20057b8560f073121003662d9f4d36dcc,
  0x5b30057b8560f07312100caa21918781928,
  0x5b40057b8560f0731210065510c8c3c0c94,
  0x5b50057b8560f0731210032a886461e064a,
  0x5b60057b8560f073121004dd9f34087bd30,
  0x5b70057b8560f073121007ea54faf4b0fb9,
  0x5b8006b2ed2df29206d007ea54faf4b0fb9,
  0x5b9004441d93ee541d500a592494f8eee51,
  0x5ba0074ea11473a18130030a8380854d63e,
  0x5bb0074ea11473a18130018541c042a6b1f,
  0x5bc002bedbd3abad6b600a592494f8eee51,
  0x5bd0015f6de9d5d6b5b008f9b6ab23182f6,
  0x5be0073bb7293d39831005dc493f6762cd6,
  0x5bf0015f6de9d5d6b5b008b5fd897d595d9,
  0x5c00015f6de9d5d6b5b00928ff772b1c2ab,
  0x5c10015f6de9d5d6b5b006a3a49a565025e,
  0x5c2004b1403700fec8a00351d24d2b2812f,
  0x5c30015f6de9d5d6b5b0085c8806d4c01c9,
  0x5c40015f6de9d5d6b5b008fc44b5d6cf8a3,
  0x5c50052dd94fd6531ff003ce6b66007c6a4,
  0x5c6006dd25912d318c7003ce6b66007c6a4,
  0x5c7006dd25912d318c7001e735b3003e352,
  0x5c8007d0c06aad50a70000f39ad9801f1a9,
  0x5c9007accc0bde90d67000f39ad9801f1a9,
  0x5ca0072b03ff2fb5483000f39ad9801f1a9,
  0x5cb007ddbad258669ba000f39ad9801f1a9,
  0x5cc007bd48cf2cafb81000f39ad9801f1a9,
  0x5cd006c9adf5ac909d8004c2063f809b84d,
  0x5ce00364d6fad6484ec004c2063f809b84d,
  0x5cf001b26b7d6b242760067471bcebbfac3,
  0x5d0000553c38c0d0f15007d1a1019612e24,
  0x5d10043e0cb98bda627003e8d080cb09712,
  0x5d20063274f9f15f1b0001f468406584b89,
  0x5d300249a4792655a9e009c60941fb979ad,
  0x5d400124d23c932ad4f008a13705686cc5e,
  0x5d50069a3ffbda8c0cd005756dbf476137e,
  0x5d60069a3ffbda8c0cd002bab6dfa3b09bf,
  0x5d7005b81b2edfd628b002bab6dfa3b09bf,
  0x5d8006f41fe6e573fe4002bab6dfa3b09bf,
  0x5d900634c6d3166a9b1002bab6dfa3b09bf,
  0x5da000bf5913cf096330086a22d38931556,
  0x5db007f1cecccfc79aa0073275b900be377,
  0x5dc003f8e76667e3cd50073275b900be377,
  0x5dd003f8e76667e3cd50082df8d02c7c780,
  0x5de003f8e76667e3cd50080fe3ce7e22095,
  0x5df003f8e76667e3cd5009fd4d00dae6b8a,
  0x5e0003f8e76667e3cd5004fea6806d735c5,
  0x5e1004e0917ebf18eda004fea6806d735c5,
  0x5e20076eef3fccffd32004fea6806d735c5,
  0x5e3003b7779fe67fe99004fea6806d735c5,
  0x5e40027048bf5f8c76d008d43322024db49,
  0x5e50027048bf5f8c76d005a23df0b0ed15b,
  0x5e6004094358083cc64005a23df0b0ed15b,
  0x5e70034796e616689e3005a23df0b0ed15b,
  0x5e800474ea6b63aad9f005a23df0b0ed15b,
  0x5e90050b942e0a4bf7d005a23df0b0ed15b,
  0x5ea00556e90f5d9c86c00af927000e899c7,
  0x5eb00429958a105a4b0005a23df0b0ed15b,
  0x5ec007b708b5b91a3b3005a23df0b0ed15b,
  0x5ed006aca3533503a87005a23df0b0ed15b,
  0x5ee00533faec9470ddc00497d88e2cd682f,
  0x5ef00731d604770ef1d00497d88e2cd682f,
  0x5f000731d604770ef1d005e4d74951f2ba6,
  0x5f100680f9a7b98d15300497d88e2cd682f,
  0x5f20058c691af331cc100497d88e2cd682f,
  0x5f30051220d4900427800497d88e2cd682f,
  0x5f400289106a480213c009a9f962bcdaaa7,
  0x5f50030358b0ab2fb85009a9f962bcdaaa7,
  0x5f600656a909b40531600353505908d5791,
  0x5f70032b5484da0298b009a9f962bcdaaa7,
  0x5f8007e17b52ee0a48500027fbd42ed2e06,
  0x5f9007f5793d0573b8800013fdea1769703,
  0x5fa007e254571551c5a007f652412cbb35d,
  0x5fb007e254571551c5a00063f592750f30f,
  0x5fc003f12a2b8aa8e2d0084649e98a60f69,
  0x5fd003f12a2b8aa8e2d00a0ce436152dcf8,
  0x5fe003f12a2b8aa8e2d008f79c46953fca9,
  0x5ff001c69a4c8accd8f008f79c46953fca9]

set_option maxRecDepth 100000 in
theorem certs64_2_ok : checkAll .b64 (mainCheck .b64) 1024 certs64_2 = true := by decide +kernel

end Grisu
