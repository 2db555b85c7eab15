import Verif.Proofs.ExpTable

/-! # Certificates for the binary32 exponents -157 to 96

Generated: entry `i * 2^128 + b * 2^64 + d` holds the denominators of the Stern-Brocot neighbours for
the exponent `min_exponent + i`. -/

namespace Grisu

def certs32 : List Nat := [
  0x10729d9000000000478e405,
  0x100000000010729d90000000004ce5aa1,
  0x200000000036af4270000000001b8dd16,
  0x300000000036af4270000000000dc6e8b,
  0x4000000000223b1590000000003001fe4,
  0x50000000001b217110000000003001fe4,
  0x600000000033227030000000001800ff2,
  0x70000000003f22efc0000000000c007f9,
  0x800000000037927700000000000c007f9,
  0x9000000000079078c0000000003c027dd,
  0xa0000000003fcaba30000000003c027dd,
  0xb0000000003de69c00000000003c027dd,
  0xc0000000003de69c00000000003472051,
  0xd0000000001ef34e00000000005365531,
  0xe0000000000f79a7000000000043ebac1,
  0xf00000000037e18bf000000000157eb71,
  0x1000000000026b021800000000062defa1,
  0x11000000000135810c0000000004f86e95,
  0x1200000000009ac08600000000045dae0f,
  0x13000000000305c29e0000000001f2abf7,
  0x14000000000182e14f0000000004f86e95,
  0x15000000000182e14f0000000004c08941,
  0x160000000003d82bf7000000000037e554,
  0x170000000003f41ea100000000001bf2aa,
  0x180000000003f41ea100000000000df955,
  0x190000000003e6254c000000000045dea9,
  0x1a0000000003964a9c0000000003dc2945,
  0x1b0000000001cb254e0000000003dc2945,
  0x1c0000000000e592a70000000004c1bbec,
  0x1d00000000018546a50000000002f6969e,
  0x1e00000000030091f400000000017b4b4f,
  0x1f0000000002fb944900000000017b4b4f,
  0x2000000000018048fa000000000467e697,
  0x210000000000c0247d000000000467e697,
  0x220000000000c0247d0000000004144e84,
  0x230000000003c0b6710000000000539813,
  0x240000000003c0b67100000000020a2742,
  0x250000000003c0b67100000000010513a1,
  0x26000000000367f8aa00000000010513a1,
  0x27000000000058bdc700000000040f28d0,
  0x280000000002b90ff6000000000260522f,
  0x2900000000015c87fb0000000005196225,
  0x2a00000000015c87fb000000000512f304,
  0x2b00000000015c87fb0000000005428978,
  0x2c00000000015c87fb00000000055a54b2,
  0x2d00000000015c87fb0000000004fb27ca,
  0x2e00000000015c87fb000000000536a3db,
  0x2f00000000015c87fb0000000004a61de6,
  0x3000000000015c87fb00000000050c1ee9,
  0x310000000002288a010000000002530ef3,
  0x3200000000023dcc7a0000000002530ef3,
  0x3300000000011ee63d000000000371f530,
  0x34000000000347703e0000000002530ef3,
  0x350000000003f6c7120000000002530ef3,
  0x360000000001fb638900000000044e727c,
  0x3700000000039f1ba80000000002aaba5d,
  0x380000000001cf8dd400000000047a4831,
  0x390000000000e7c6ea00000000047a4831,
  0x3a0000000001dc28350000000002aaba5d,
  0x3b00000000024371490000000004ee2ba6,
  0x3c000000000243714900000000027715d3,
  0x3d00000000025d438e0000000004d45961,
  0x3e0000000001f5fa7a00000000027715d3,
  0x3f000000000372131000000000027715d3,
  0x400000000001b9098800000000027715d3,
  0x410000000003af040200000000027715d3,
  0x420000000001d7820100000000027715d3,
  0x430000000002274bea00000000027715d3,
  0x4400000000035f3a1900000000027715d3,
  0x450000000002eb27f600000000027715d3,
  0x460000000003eca9ce00000000027715d3,
  0x470000000001f654e700000000027715d3,
  0x4800000000026a670a00000000027715d3,
  0x490000000003ac495800000000027715d3,
  0x4a0000000001d624ac00000000027715d3,
  0x4b0000000001c975e300000000027715d3,
  0x4c00000000022045db00000000027715d3,
  0x4d00000000024badd700000000027715d3,
  0x4e00000000019e0de700000000027715d3,
  0x4f00000000020a91dd00000000027715d3,
  0x50000000000240d3d800000000027715d3,
  0x510000000003977fbf00000000027715d3,
  0x520000000003977fbf00000000018cede2,
  0x530000000003977fbf0000000000c676f1,
  0x540000000003977fbf00000000022efb58,
  0x5500000000020a91dd0000000002f57249,
  0x560000000002800213000000000575745c,
  0x57000000000280021300000000053abc41,
  0x5800000000020a91dd00000000053abc41,
  0x590000000003a2a70f0000000001981532,
  0x5a0000000003a2a70f0000000000cc0a99,
  0x5b00000000023758d400000000053abc41,
  0x5c0000000003a2a70f0000000007721515,
  0x5d0000000003a2a70f0000000001e7b703,
  0x5e0000000002c52f090000000001e7b703,
  0x5f000000000349192100000000010a3efd,
  0x60000000000333eb0c00000000010a3efd,
  0x61000000000199f58600000000043e2a09,
  0x6200000000008fb689000000000413cddf,
  0x6300000000008fb6890000000003712f46,
  0x640000000002484e2c0000000001b897a3,
  0x650000000002dcbeb90000000001b897a3,
  0x660000000003fc2bcb0000000001b897a3,
  0x670000000002da61b70000000001b897a3,
  0x680000000002497cad0000000001b897a3,
  0x69000000000090e50a000000000413cddf,
  0x6a0000000000487285000000000413cddf,
  0x6b000000000048728500000000042941d5,
  0x6c00000000016a3c9900000000042941d5,
  0x6d0000000002c9bf3700000000015f829e,
  0x6e0000000002c9bf370000000003798086,
  0x6f0000000002c9bf370000000001bcc043,
  0x700000000003e178260000000000afc14f,
  0x7100000000040000000000000000afc14f,
  0x7200000000020000000000000004afc14f,
  0x73000000000200000000000000056ec68b,
  0x74000000000100000000000000046ec68b,
  0x75000000000080000000000000046ec68b,
  0x760000000000800000000000000429e0b7,
  0x770000000000400000000000000429e0b7,
  0x780000000000200000000000000409e0b7,
  0x790000000000100000000000000409e0b7,
  0x7a00000000001000000000000004016393,
  0x7b00000000000800000000000004016393,
  0x7c00000000000400000000000004016393,
  0x7d0000000000040000000000000402f1df,
  0x7e0000000000020000000000000400f1df,
  0x7f0000000000010000000000000400f1df,
  0x800000000000010000000000000400b95b,
  0x810000000000008000000000000400395b,
  0x820000000000004000000000000400395b,
  0x830000000000002000000000000400195b,
  0x8400000000000020000000000004001ec7,
  0x8500000000000010000000000004000ec7,
  0x86000000000000080000000000040006c7,
  0x87000000000000080000000000040001e3,
  0x88000000000000040000000000040001e3,
  0x89000000000000020000000000040001e3,
  0x8a0000000000000200000000000400016f,
  0x8b0000000000000100000000000400006f,
  0x8c0000000000000080000000000400006f,
  0x8d0000000000000040000000000400002f,
  0x8e0000000000000040000000000400002b,
  0x8f0000000000000020000000000400000b,
  0x900000000000000010000000000400000b,
  0x9100000000000000100000000004000007,
  0x9200000000000000080000000004000007,
  0x9300000000000000040000000004000003,
  0x9400000000000000040000000004000003,
  0x9500000000000000020000000004000001,
  0x9600000000000000010000000004000001,
  0x9700000000000000010000000004000001,
  0x9800000000000000010000000004000001,
  0x9900000000000000010000000004000001,
  0x9a00000000000000010000000004000001,
  0x9b00000000000000050000000004000004,
  0x9c00000000000000050000000004000005,
  0x9d00000000000000050000000004000003,
  0x9e00000000000000190000000004000012,
  0x9f00000000000000190000000004000002,
  0xa000000000000000190000000004000013,
  0xa1000000000000007d000000000400005e,
  0xa2000000000000007d0000000004000073,
  0xa3000000000000007d000000000400003f,
  0xa4000000000000007d0000000004000025,
  0xa50000000000000271000000000400011f,
  0xa60000000000000271000000000400018f,
  0xa7000000000000027100000000040001c7,
  0xa80000000000000c3500000000040006a9,
  0xa90000000000000c350000000004000454,
  0xaa0000000000000c350000000004000944,
  0xab0000000000003d0900000000040021ae,
  0xac0000000000003d09000000000400305b,
  0xad0000000000003d09000000000400192d,
  0xae0000000000003d090000000004000d96,
  0xaf000000000001312d000000000400c4b1,
  0xb0000000000001312d0000000004006358,
  0xb1000000000001312d000000000400cb42,
  0xb2000000000005f5e1000000000401fc6f,
  0xb3000000000005f5e100000000040492be,
  0xb4000000000005f5e1000000000402e2f5,
  0xb500000000001dcd65000000000402e2f5,
  0xb600000000001dcd6500000000040afbe2,
  0xb700000000001dcd6500000000040021a6,
  0xb800000000001dcd6500000000041881ed,
  0xb900000000009502f900000000048fb781,
  0xba00000000009502f90000000004516628,
  0xbb00000000009502f900000000047cbef8,
  0xbc0000000002e90edd00000000063bc7e3,
  0xbd0000000002e90edd0000000001a95c83,
  0xbe0000000002e90edd00000000024935b0,
  0xbf00000000009fd92d00000000048fb781,
  0xc000000000009fd92d00000000047753de,
  0xc100000000009fd92d00000000037b5c49,
  0xc200000000020d9abb00000000037b5c49,
  0xc30000000003ed26420000000000cde861,
  0xc40000000002c47b82000000000656df65,
  0xc50000000001623dc10000000004f4a1a4,
  0xc60000000003b393410000000000cde861,
  0xc700000000030ea6320000000003dc8e93,
  0xc80000000001875319000000000563e1ac,
  0xc9000000000187531900000000040589e5,
  0xca000000000187531900000000044dc198,
  0xcb000000000187531900000000053586fe,
  0xcc000000000187531900000000029ac37f,
  0xcd00000000038288e500000000009f8db3,
  0xce0000000002110b4c0000000004c1a44b,
  0xcf00000000010885a60000000004c1a44b,
  0xd00000000001717d990000000003b91ea5,
  0xd10000000002954e1f00000000064e6cc4,
  0xd20000000002954e1f0000000005bc8481,
  0xd3000000000374e3750000000003273662,
  0xd4000000000374e3750000000001939b31,
  0xd50000000002843f530000000001939b31,
  0xd600000000020bed4200000000039f8873,
  0xd7000000000374e37500000000011b4920,
  0xd8000000000374e37500000000008da490,
  0xd90000000003bbb5bd000000000046d248,
  0xda0000000002a06c9d0000000001621b68,
  0xdb0000000003517a510000000000b10db4,
  0xdc0000000003aa012b00000000005886da,
  0xdd0000000002a06c9d0000000001baa242,
  0xde00000000037dbdbe0000000000dd5121,
  0xdf00000000029c3000000000000615b121,
  0xe000000000014e18000000000004c79921,
  0xe100000000014e180000000000045295a5,
  0xe20000000000a70c0000000000045295a5,
  0xe3000000000053860000000000045295a5,
  0xe40000000001a19e000000000005a0ada5,
  0xe50000000000d0cf000000000004cfdea5,
  0xe600000000006867800000000004677725,
  0xe700000000020a05800000000006091525,
  0xe800000000010502c00000000005041265,
  0xe900000000008281600000000004819105,
  0xea00000000004140b00000000004405055,
  0xeb00000000014643700000000004c2d1b5,
  0xec0000000000a321b800000000041faffd,
  0xed00000000005190dc00000000041faffd,
  0xee000000000197d44c0000000004c2d1b5,
  0xef0000000000cbea260000000004c2d1b5,
  0xf0000000000065f51300000000045cdca2,
  0xf10000000001fdc95f000000000528c6c8,
  0xf20000000001fdc95f0000000004922cc3,
  0xf30000000001fdc95f000000000545c470,
  0xf40000000001fdc95f0000000002a2e238,
  0xf5000000000158b0860000000004922cc3,
  0xf60000000000ac58430000000004922cc3,
  0xf70000000003f7f30900000000034b9ac6,
  0xf80000000003f7f30900000000009a39ba,
  0xf90000000003f7f30900000000004d1cdd,
  0xfa0000000003f7f30900000000022287f3,
  0xfb0000000001d56b1600000000052c667d,
  0xfc0000000000eab58b000000000441b0f2,
  0xfd0000000000eab58b0000000004e0f91a]

set_option maxRecDepth 100000 in
theorem certs32_ok : checkAll .b32 (mainCheck .b32) 0 certs32 = true := by decide +kernel

def certs32two : List Nat := [
  0x155da70000000000f1cc32,
  0x100000000008e43c0000000000078e619,
  0x20000000000a3a1670000000001800ff2,
  0x30000000000a3a1670000000000c007f9,
  0x40000000000b1d4b00000000000c007f9,
  0x5000000000079078c0000000000c007f9,
  0x60000000000fc8bbf0000000000c007f9,
  0x70000000000de49dc0000000000c007f9,
  0x800000000006f24ee0000000000c007f9,
  0x900000000001e41e300000000011b67ab,
  0xa0000000000f79a700000000000d9588d,
  0xb00000000007bcd3800000000015525c5,
  0xc00000000007bcd38000000000157eb71,
  0xd00000000003de69c00000000011a04d5,
  0xe00000000001ef34e00000000011a04d5,
  0xf00000000009ac086000000000157eb71,
  0x1000000000004d604300000000010a8b2e,
  0x1100000000004d6043000000000120061d,
  0x1200000000004d60430000000001041373,
  0x130000000000f723fd00000000001bf2aa,
  0x140000000000f723fd00000000000df955,
  0x150000000000ba73fd0000000000c86d52,
  0x160000000000f78aac00000000000df955,
  0x170000000000f9895300000000000df955,
  0x180000000000e592a70000000000f38bfc,
  0x190000000000e592a7000000000045dea9,
  0x1a0000000000e592a7000000000095b8a8,
  0x1b0000000000e592a700000000004adc54,
  0x1c0000000000e592a70000000000256e2a,
  0x1d0000000000c0247d0000000000bb26d2,
  0x1e0000000000c0247d00000000005d9369,
  0x1f00000000008edbf300000000017b4b4f,
  0x200000000000c0247d000000000089de48,
  0x210000000000c0247d000000000044ef24,
  0x220000000000e29c0f0000000000227792,
  0x23000000000058bdc700000000010513a1,
  0x240000000000aee8b40000000000562aed,
  0x25000000000057745a00000000010513a1,
  0x2600000000002bba2d00000000010513a1,
  0x270000000000daa2e1000000000081e51a,
  0x280000000000daa2e1000000000040f28d,
  0x2900000000008dcab70000000000cebd44,
  0x2a00000000000be59d00000000010940b0,
  0x2b0000000000b436cc0000000000a8512f,
  0x2c00000000005a1b660000000001026c95,
  0x2d00000000006601030000000000f686f8,
  0x2e0000000000e1447f00000000007b437c,
  0x2f0000000000e1447f00000000003da1be,
  0x300000000000e1447f00000000001ed0df,
  0x31000000000084d1e200000000009a145b,
  0x3200000000004268f10000000000dc7d4c,
  0x330000000000b0a79700000000006e3ea6,
  0x340000000000f4614b00000000002bd5b5,
  0x350000000000e7c6ea00000000002bd5b5,
  0x36000000000073e3750000000001139c9f,
  0x37000000000073e37500000000014f0ffe,
  0x38000000000073e37500000000011b6b74,
  0x39000000000073e375000000000101992f,
  0x3a0000000000f3c3c8000000000019d245,
  0x3b0000000000fafd3d000000000019d245,
  0x3c00000000008a67c10000000000a43a06,
  0x3d0000000000dc84c40000000000521d03,
  0x3e0000000000dc84c40000000000be0c4b,
  0x3f00000000006e426200000000012c4ead,
  0x40000000000037213100000000012c4ead,
  0x410000000000c3dc0c00000000004fc9e9,
  0x42000000000061ee060000000000b1b7ef,
  0x430000000000e2aef20000000000b1b7ef,
  0x440000000000f4d30f000000000080c0ec,
  0x450000000000f4d30f0000000000406076,
  0x460000000000f4d30f000000000020303b,
  0x470000000000eb1256000000000020303b,
  0x480000000000eb12560000000000a0f127,
  0x49000000000075892b0000000001167a52,
  0x4a000000000075892b000000000100c654,
  0x4b0000000000f06df7000000000015b3fe,
  0x4c0000000000fb47f600000000000ad9ff,
  0x4d0000000000ffdbef00000000000ad9ff,
  0x4e0000000000ea27f100000000003641fb,
  0x4f00000000009034f6000000000156abe7,
  0x500000000000481a7b00000000010e916c,
  0x510000000000481a7b0000000001177dac,
  0x5200000000005106bb0000000001177dac,
  0x530000000000dcc59100000000008bbed6,
  0x540000000000dcc591000000000045df6b,
  0x550000000000e7ece100000000003ab81b,
  0x56000000000091527e00000000015d5d17,
  0x57000000000048a93f000000000114b3d8,
  0x5800000000009f43a20000000000cc0a99,
  0x5900000000004fa1d10000000000cc0a99,
  0x5a00000000008dd635000000000159e0ce,
  0x5b00000000008dd63500000000013ac69c,
  0x5c00000000006ebc0300000000010a3efd,
  0x5d00000000006ebc0300000000012b3983,
  0x5e0000000000ccfac300000000005e3ec0,
  0x5f0000000000ccfac300000000003d443a,
  0x600000000000ccfac30000000001b897a3,
  0x610000000000ccfac3000000000075ce70,
  0x6200000000008fb689000000000094708d,
  0x63000000000092138b0000000001268418,
  0x64000000000092138b0000000001255597,
  0x650000000000dbb491000000000049a106,
  0x660000000000487285000000000127b299,
  0x6700000000004872850000000000b8128f,
  0x68000000000080428a0000000001385519,
  0x6900000000004872850000000001171019,
  0x6a00000000004872850000000000f833d4,
  0x6b0000000000c48c6f00000000007c19ea,
  0x6c00000000005d3da50000000000afc14f,
  0x6d0000000000867f7a00000000013640c9,
  0x6e0000000000433fbd00000000013640c9,
  0x6f00000000010000000000000000bcc043,
  0x7000000000010000000000000000afc14f,
  0x71000000000080000000000000012fc14f,
  0x72000000000040000000000000012fc14f,
  0x73000000000040000000000000012ec68b,
  0x74000000000020000000000000010ec68b,
  0x75000000000010000000000000010ec68b,
  0x760000000000100000000000000109e0b7,
  0x770000000000080000000000000101e0b7,
  0x780000000000040000000000000101e0b7,
  0x790000000000020000000000000101e0b7,
  0x7a00000000000200000000000001016393,
  0x7b00000000000100000000000001006393,
  0x7c00000000000080000000000001006393,
  0x7d000000000000800000000000010071df,
  0x7e000000000000400000000000010031df,
  0x7f000000000000200000000000010011df,
  0x800000000000002000000000000100195b,
  0x810000000000001000000000000100095b,
  0x820000000000000800000000000100015b,
  0x830000000000000400000000000100015b,
  0x84000000000000040000000000010002c7,
  0x85000000000000020000000000010000c7,
  0x86000000000000010000000000010000c7,
  0x87000000000000010000000000010000e3,
  0x8800000000000000800000000001000063,
  0x8900000000000000400000000001000023,
  0x8a0000000000000040000000000100002f,
  0x8b0000000000000020000000000100000f,
  0x8c0000000000000010000000000100000f,
  0x8d00000000000000080000000001000007,
  0x8e00000000000000080000000001000003,
  0x8f00000000000000040000000001000003,
  0x9000000000000000020000000001000001,
  0x9100000000000000020000000001000001,
  0x9200000000000000010000000001000001,
  0x9300000000000000010000000001000001,
  0x9400000000000000010000000001000001,
  0x9500000000000000010000000001000001,
  0x9600000000000000010000000001000001,
  0x9700000000000000010000000001000001,
  0x9800000000000000010000000001000001,
  0x9900000000000000010000000001000001,
  0x9a00000000000000010000000001000001,
  0x9b00000000000000050000000001000005,
  0x9c00000000000000050000000001000002,
  0x9d00000000000000050000000001000003,
  0x9e0000000000000019000000000100000d,
  0x9f0000000000000019000000000100000b,
  0xa00000000000000019000000000100000a,
  0xa1000000000000007d000000000100003c,
  0xa2000000000000007d000000000100002f,
  0xa3000000000000007d0000000001000067,
  0xa4000000000000007d0000000001000006,
  0xa500000000000002710000000001000100,
  0xa60000000000000271000000000100010e,
  0xa700000000000002710000000001000115,
  0xa80000000000000c350000000001000115,
  0xa90000000000000c350000000001000251,
  0xaa0000000000000c3500000000010002ef,
  0xab0000000000003d090000000001001b59,
  0xac0000000000003d090000000001003412,
  0xad0000000000003d0900000000010021ea,
  0xae0000000000003d0900000000010018d6,
  0xaf000000000001312d00000000010018d6,
  0xb0000000000001312d000000000100cb67,
  0xb1000000000001312d0000000001008c19,
  0xb2000000000005f5e10000000001041fa0,
  0xb3000000000005f5e10000000001053126,
  0xb4000000000005f5e1000000000105b9e9,
  0xb500000000001dcd65000000000111a5ab,
  0xb600000000001dcd6500000000010eef1c,
  0xb700000000001dcd6500000000011c7a87,
  0xb800000000001dcd65000000000114598a,
  0xb900000000009502f900000000007f5691,
  0xba00000000009502f900000000008a2cc5,
  0xbb00000000009502f900000000008f97df,
  0xbc00000000009fd92d000000000084c1ab,
  0xbd00000000009fd92d0000000000924d6c,
  0xbe0000000000e8ffe300000000004926b6,
  0xbf00000000009fd92d00000000016dc18e,
  0xc000000000009fd92d0000000000b6e0c7,
  0xc10000000000ab5cfa0000000000b6e0c7,
  0xc2000000000055ae7d00000000010c8f44,
  0xc300000000004a2ab00000000001181311,
  0xc400000000002515580000000001181311,
  0xc50000000000128aac0000000001058865,
  0xc600000000005cb55c00000000012a9dbd,
  0xc700000000002e5aae00000000012a9dbd,
  0xc80000000000172d570000000001137066,
  0xc9000000000073e2b30000000001137066,
  0xca0000000000fd9ae6000000000089b833,
  0xcb00000000007ecd73000000000089b833,
  0xcc00000000008442d300000000010dfb06,
  0xcd00000000008442d3000000000123d086,
  0xce00000000008442d30000000001162b16,
  0xcf00000000008442d300000000010f585e,
  0xd000000000006fcaab000000000091e843,
  0xd1000000000080d977000000000112c1ba,
  0xd2000000000080d97700000000010a3a54,
  0xd3000000000078521100000000011b4920,
  0xd4000000000078521100000000008da490,
  0xd50000000000bf2459000000000046d248,
  0xd60000000000e28d7d0000000000236924,
  0xd70000000000f77eed0000000000236924,
  0xd80000000000f77eed000000000011b492,
  0xd90000000000f77eed000000000008da49,
  0xda0000000000e5ca5b00000000002c436d,
  0xdb0000000000e18dbe00000000002c436d,
  0xdc0000000000f5912600000000002c436d,
  0xdd000000000070c6df0000000000dd5121,
  0xde0000000000a70c000000000001845d21,
  0xdf0000000000538600000000000130d721,
  0xe0000000000029c3000000000001071421,
  0xe1000000000029c30000000000010f59a5,
  0xe2000000000014e18000000000010f59a5,
  0xe300000000000a70c0000000000104e8e5,
  0xe400000000003433c00000000001243b25,
  0xe500000000001a19e000000000010a2145,
  0xe600000000000d0cf000000000010a2145,
  0xe700000000004140b00000000001314815,
  0xe8000000000020a058000000000110a7bd,
  0xe9000000000010502c0000000001005791,
  0xea00000000000828160000000001005791,
  0xeb000000000028c86e000000000118cfd3,
  0xec00000000001464370000000001046b9c,
  0xed0000000000146437000000000110f34f,
  0xee000000000065f513000000000162842b,
  0xef000000000065f51300000000014a31b2,
  0xf0000000000065f51300000000010b0dec,
  0xf10000000000b397ad0000000000a518d9,
  0xf20000000000ac58430000000000a518d9,
  0xf30000000000ac58430000000000a8b88e,
  0xf40000000000ac58430000000000545c47,
  0xf50000000000ac58430000000001a5cd63,
  0xf60000000000ac584300000000007cba90,
  0xf70000000000eab58b00000000003e5d48,
  0xf80000000000eab58b00000000004d1cdd,
  0xf90000000000eab58b00000000009be934,
  0xfa0000000000eab58b00000000004df49a,
  0xfb0000000000eab58b00000000009b1177,
  0xfc0000000000eab58b0000000000c2e381,
  0xfd0000000000eab58b0000000000d6cc86]

set_option maxRecDepth 100000 in
theorem certs32two_ok : checkAll .b32 (twoCheck .b32) 0 certs32two = true := by decide +kernel

end Grisu
