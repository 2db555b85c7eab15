import Verif.Proofs.RyuExp

/-! # Certificates for the binary32 exponents of Ryu

Generated: entry `i * 2^128 + b * 2^64 + d` holds the denominators of the Stern-Brocot neighbours for
the exponent `-151 + i`. -/

namespace Grisu.Ryu

def fCertsSplit : List Nat := [
  0x10729d9000000000478e405,
  0x100000000010729d90000000004ce5aa1,
  0x200000000036af4270000000001b8dd16,
  0x300000000036af4270000000000dc6e8b,
  0x4000000000223b1590000000003001fe4,
  0x50000000001b217110000000003001fe4,
  0x600000000033227030000000001800ff2,
  0x70000000003f22efc0000000000c007f9,
  0x800000000037927700000000000c007f9,
  0x9000000000079078c0000000003c027dd,
  0xa0000000003fcaba30000000003c027dd,
  0xb0000000003de69c00000000003c027dd,
  0xc0000000003de69c00000000003472051,
  0xd0000000001ef34e00000000005365531,
  0xe0000000000f79a7000000000043ebac1,
  0xf00000000037e18bf000000000157eb71,
  0x1000000000026b021800000000062defa1,
  0x11000000000135810c0000000004f86e95,
  0x1200000000009ac08600000000045dae0f,
  0x13000000000305c29e0000000001f2abf7,
  0x14000000000182e14f0000000004f86e95,
  0x15000000000182e14f0000000004c08941,
  0x160000000003d82bf7000000000037e554,
  0x170000000003f41ea100000000001bf2aa,
  0x180000000003f41ea100000000000df955,
  0x190000000003e6254c000000000045dea9,
  0x1a0000000003964a9c0000000003dc2945,
  0x1b0000000001cb254e0000000003dc2945,
  0x1c0000000000e592a70000000004c1bbec,
  0x1d00000000018546a50000000002f6969e,
  0x1e00000000030091f400000000017b4b4f,
  0x1f0000000002fb944900000000017b4b4f,
  0x2000000000018048fa000000000467e697,
  0x210000000000c0247d000000000467e697,
  0x220000000000c0247d0000000004144e84,
  0x230000000003c0b6710000000000539813,
  0x240000000003c0b67100000000020a2742,
  0x250000000003c0b67100000000010513a1,
  0x26000000000367f8aa00000000010513a1,
  0x27000000000058bdc700000000040f28d0,
  0x280000000002b90ff6000000000260522f,
  0x2900000000015c87fb0000000005196225,
  0x2a00000000015c87fb000000000512f304,
  0x2b00000000015c87fb0000000005428978,
  0x2c00000000015c87fb00000000055a54b2,
  0x2d00000000015c87fb0000000004fb27ca,
  0x2e00000000015c87fb000000000536a3db,
  0x2f00000000015c87fb0000000004a61de6,
  0x3000000000015c87fb00000000050c1ee9,
  0x310000000002288a010000000002530ef3,
  0x3200000000023dcc7a0000000002530ef3,
  0x3300000000011ee63d000000000371f530,
  0x34000000000347703e0000000002530ef3,
  0x350000000003f6c7120000000002530ef3,
  0x360000000001fb638900000000044e727c,
  0x3700000000039f1ba80000000002aaba5d,
  0x380000000001cf8dd400000000047a4831,
  0x390000000000e7c6ea00000000047a4831,
  0x3a0000000001dc28350000000002aaba5d,
  0x3b00000000024371490000000004ee2ba6,
  0x3c000000000243714900000000027715d3,
  0x3d00000000025d438e0000000004d45961,
  0x3e0000000001f5fa7a00000000027715d3,
  0x3f000000000372131000000000027715d3,
  0x400000000001b9098800000000027715d3,
  0x410000000003af040200000000027715d3,
  0x420000000001d7820100000000027715d3,
  0x430000000002274bea00000000027715d3,
  0x4400000000035f3a1900000000027715d3,
  0x450000000002eb27f600000000027715d3,
  0x460000000003eca9ce00000000027715d3,
  0x470000000001f654e700000000027715d3,
  0x4800000000026a670a00000000027715d3,
  0x490000000003ac495800000000027715d3,
  0x4a0000000001d624ac00000000027715d3,
  0x4b0000000001c975e300000000027715d3,
  0x4c00000000022045db00000000027715d3,
  0x4d00000000024badd700000000027715d3,
  0x4e00000000019e0de700000000027715d3,
  0x4f00000000020a91dd00000000027715d3,
  0x50000000000240d3d800000000027715d3,
  0x510000000003977fbf00000000027715d3,
  0x520000000003977fbf00000000018cede2,
  0x530000000003977fbf0000000000c676f1,
  0x540000000003977fbf00000000022efb58,
  0x5500000000020a91dd0000000002f57249,
  0x560000000002800213000000000575745c,
  0x57000000000280021300000000053abc41,
  0x5800000000020a91dd00000000053abc41,
  0x590000000003a2a70f0000000001981532,
  0x5a0000000003a2a70f0000000000cc0a99,
  0x5b00000000023758d400000000053abc41,
  0x5c0000000003a2a70f0000000007721515,
  0x5d0000000003a2a70f0000000001e7b703,
  0x5e0000000002c52f090000000001e7b703,
  0x5f000000000349192100000000010a3efd,
  0x60000000000333eb0c00000000010a3efd,
  0x61000000000199f58600000000043e2a09,
  0x6200000000008fb689000000000413cddf,
  0x6300000000008fb6890000000003712f46,
  0x640000000002484e2c0000000001b897a3,
  0x650000000002dcbeb90000000001b897a3,
  0x660000000003fc2bcb0000000001b897a3,
  0x670000000002da61b70000000001b897a3,
  0x680000000002497cad0000000001b897a3,
  0x69000000000090e50a000000000413cddf,
  0x6a0000000000487285000000000413cddf,
  0x6b000000000048728500000000042941d5,
  0x6c00000000016a3c9900000000042941d5,
  0x6d0000000002c9bf3700000000015f829e,
  0x6e0000000002c9bf370000000003798086,
  0x6f0000000002c9bf370000000001bcc043,
  0x700000000003e178260000000000afc14f,
  0x7100000000040000000000000000afc14f,
  0x7200000000020000000000000004afc14f,
  0x73000000000200000000000000056ec68b,
  0x74000000000100000000000000046ec68b,
  0x75000000000080000000000000046ec68b,
  0x760000000000800000000000000429e0b7,
  0x770000000000400000000000000429e0b7,
  0x780000000000200000000000000409e0b7,
  0x790000000000100000000000000409e0b7,
  0x7a00000000001000000000000004016393,
  0x7b00000000000800000000000004016393,
  0x7c00000000000400000000000004016393,
  0x7d0000000000040000000000000402f1df,
  0x7e0000000000020000000000000400f1df,
  0x7f0000000000010000000000000400f1df,
  0x800000000000010000000000000400b95b,
  0x810000000000008000000000000400395b,
  0x820000000000004000000000000400395b,
  0x830000000000002000000000000400195b,
  0x8400000000000020000000000004001ec7,
  0x8500000000000010000000000004000ec7,
  0x86000000000000080000000000040006c7,
  0x87000000000000080000000000040001e3,
  0x88000000000000040000000000040001e3,
  0x89000000000000020000000000040001e3,
  0x8a0000000000000200000000000400016f,
  0x8b0000000000000100000000000400006f,
  0x8c0000000000000080000000000400006f,
  0x8d0000000000000040000000000400002f,
  0x8e0000000000000040000000000400002b,
  0x8f0000000000000020000000000400000b,
  0x900000000000000010000000000400000b,
  0x9100000000000000100000000004000007,
  0x9200000000000000080000000004000007,
  0x9300000000000000040000000004000003,
  0x9400000000000000040000000004000003,
  0x9500000000000000020000000004000001,
  0x9600000000000000010000000004000001,
  0x9700000000000000010000000004000001,
  0x9800000000000000010000000004000001,
  0x9900000000000000010000000004000001,
  0x9a00000000000000010000000004000001,
  0x9b00000000000000050000000004000004,
  0x9c00000000000000050000000004000005,
  0x9d00000000000000050000000004000003,
  0x9e00000000000000190000000004000012,
  0x9f00000000000000190000000004000002,
  0xa000000000000000190000000004000013,
  0xa1000000000000007d000000000400005e,
  0xa2000000000000007d0000000004000073,
  0xa3000000000000007d000000000400003f,
  0xa4000000000000007d0000000004000025,
  0xa50000000000000271000000000400011f,
  0xa60000000000000271000000000400018f,
  0xa7000000000000027100000000040001c7,
  0xa80000000000000c3500000000040006a9,
  0xa90000000000000c350000000004000454,
  0xaa0000000000000c350000000004000944,
  0xab0000000000003d0900000000040021ae,
  0xac0000000000003d09000000000400305b,
  0xad0000000000003d09000000000400192d,
  0xae0000000000003d090000000004000d96,
  0xaf000000000001312d000000000400c4b1,
  0xb0000000000001312d0000000004006358,
  0xb1000000000001312d000000000400cb42,
  0xb2000000000005f5e1000000000401fc6f,
  0xb3000000000005f5e100000000040492be,
  0xb4000000000005f5e1000000000402e2f5,
  0xb500000000001dcd65000000000402e2f5,
  0xb600000000001dcd6500000000040afbe2,
  0xb700000000001dcd6500000000040021a6,
  0xb800000000001dcd6500000000041881ed,
  0xb900000000009502f900000000048fb781,
  0xba00000000009502f90000000004516628,
  0xbb00000000009502f900000000047cbef8,
  0xbc0000000002e90edd00000000063bc7e3,
  0xbd0000000002e90edd0000000001a95c83,
  0xbe0000000002e90edd00000000024935b0,
  0xbf00000000009fd92d00000000048fb781,
  0xc000000000009fd92d00000000047753de,
  0xc100000000009fd92d00000000037b5c49,
  0xc200000000020d9abb00000000037b5c49,
  0xc30000000003ed26420000000000cde861,
  0xc40000000002c47b82000000000656df65,
  0xc50000000001623dc10000000004f4a1a4,
  0xc60000000003b393410000000000cde861,
  0xc700000000030ea6320000000003dc8e93,
  0xc80000000001875319000000000563e1ac,
  0xc9000000000187531900000000040589e5,
  0xca000000000187531900000000044dc198,
  0xcb000000000187531900000000053586fe,
  0xcc000000000187531900000000029ac37f,
  0xcd00000000038288e500000000009f8db3,
  0xce0000000002110b4c0000000004c1a44b,
  0xcf00000000010885a60000000004c1a44b,
  0xd00000000001717d990000000003b91ea5,
  0xd10000000002954e1f00000000064e6cc4,
  0xd20000000002954e1f0000000005bc8481,
  0xd3000000000374e3750000000003273662,
  0xd4000000000374e3750000000001939b31,
  0xd50000000002843f530000000001939b31,
  0xd600000000020bed4200000000039f8873,
  0xd7000000000374e37500000000011b4920,
  0xd8000000000374e37500000000008da490,
  0xd90000000003bbb5bd000000000046d248,
  0xda0000000002a06c9d0000000001621b68,
  0xdb0000000003517a510000000000b10db4,
  0xdc0000000003aa012b00000000005886da,
  0xdd0000000002a06c9d0000000001baa242,
  0xde00000000037dbdbe0000000000dd5121,
  0xdf00000000029c3000000000000615b121,
  0xe000000000014e18000000000004c79921,
  0xe100000000014e180000000000045295a5,
  0xe20000000000a70c0000000000045295a5,
  0xe3000000000053860000000000045295a5,
  0xe40000000001a19e000000000005a0ada5,
  0xe50000000000d0cf000000000004cfdea5,
  0xe600000000006867800000000004677725,
  0xe700000000020a05800000000006091525,
  0xe800000000010502c00000000005041265,
  0xe900000000008281600000000004819105,
  0xea00000000004140b00000000004405055,
  0xeb00000000014643700000000004c2d1b5,
  0xec0000000000a321b800000000041faffd,
  0xed00000000005190dc00000000041faffd,
  0xee000000000197d44c0000000004c2d1b5,
  0xef0000000000cbea260000000004c2d1b5,
  0xf0000000000065f51300000000045cdca2,
  0xf10000000001fdc95f000000000528c6c8,
  0xf20000000001fdc95f0000000004922cc3,
  0xf30000000001fdc95f000000000545c470,
  0xf40000000001fdc95f0000000002a2e238,
  0xf5000000000158b0860000000004922cc3,
  0xf60000000000ac58430000000004922cc3,
  0xf70000000003f7f30900000000034b9ac6,
  0xf80000000003f7f30900000000009a39ba,
  0xf90000000003f7f30900000000004d1cdd,
  0xfa0000000003f7f30900000000022287f3,
  0xfb0000000001d56b1600000000052c667d,
  0xfc0000000000eab58b000000000441b0f2,
  0xfd0000000000eab58b0000000004e0f91a]

set_option maxRecDepth 100000 in
theorem fCertsSplit_ok : checkFrom (-151) (fCheck false) 0 fCertsSplit = true := by decide +kernel

def gCertsSplit : List Nat := [
  0xd6cdcf0000000000305c0a,
  0x100000000000000000000000000000000,
  0x200000000008e43c0000000000078e619,
  0x300000000004721e00000000000c007f9,
  0x400000000000000000000000000000000,
  0x50000000000b1d4b00000000000c007f9,
  0x6000000000058ea580000000000c007f9,
  0x700000000000000000000000000000000,
  0x800000000000000000000000000000000,
  0x900000000006f24ee0000000000c007f9,
  0xa0000000000f79a700000000000c007f9,
  0xb00000000000000000000000000000000,
  0xc00000000007bcd3800000000015525c5,
  0xd00000000003de69c0000000001173f29,
  0xe00000000000000000000000000000000,
  0xf00000000001ef34e00000000011a04d5,
  0x1000000000000f79a700000000010a8b2e,
  0x1100000000000000000000000000000000,
  0x1200000000000000000000000000000000,
  0x1300000000004d60430000000001041373,
  0x1400000000000000000000000000000000,
  0x1500000000000000000000000000000000,
  0x160000000000ba73fd0000000000c86d52,
  0x170000000000ba73fd00000000006436a9,
  0x1800000000000000000000000000000000,
  0x190000000000e592a70000000000f38bfc,
  0x1a0000000000e592a7000000000079c5fe,
  0x1b00000000000000000000000000000000,
  0x1c00000000000000000000000000000000,
  0x1d0000000000e592a70000000000256e2a,
  0x1e00000000000000000000000000000000,
  0x1f00000000000000000000000000000000,
  0x2000000000008edbf300000000017b4b4f,
  0x2100000000008edbf300000000007637ae,
  0x2200000000000000000000000000000000,
  0x230000000000e29c0f0000000000227792,
  0x240000000000f3d7d80000000000113bc9,
  0x2500000000000000000000000000000000,
  0x2600000000000000000000000000000000,
  0x2700000000002bba2d00000000010513a1,
  0x2800000000000000000000000000000000,
  0x2900000000000000000000000000000000,
  0x2a00000000008dcab70000000000cebd44,
  0x2b0000000000f529590000000000675ea2,
  0x2c00000000000000000000000000000000,
  0x2d00000000005a1b660000000001026c95,
  0x2e00000000002d0db30000000001026c95,
  0x2f00000000000000000000000000000000,
  0x3000000000000000000000000000000000,
  0x310000000000e1447f00000000001ed0df,
  0x3200000000000000000000000000000000,
  0x3300000000000000000000000000000000,
  0x340000000000b0a79700000000006e3ea6,
  0x350000000000e7c6ea0000000000371f53,
  0x3600000000000000000000000000000000,
  0x37000000000073e3750000000001139c9f,
  0x380000000000c3c00a00000000004fdc95,
  0x3900000000000000000000000000000000,
  0x3a000000000073e375000000000101992f,
  0x3b000000000073e3750000000000babe52,
  0x3c00000000000000000000000000000000,
  0x3d00000000000000000000000000000000,
  0x3e0000000000dc84c40000000000521d03,
  0x3f0000000000c05f650000000000521d03,
  0x4000000000000000000000000000000000,
  0x41000000000037213100000000012c4ead,
  0x42000000000037213100000000011ffa51,
  0x4300000000000000000000000000000000,
  0x440000000000e2aef20000000000b1b7ef,
  0x4500000000007157790000000001230f68,
  0x4600000000000000000000000000000000,
  0x4700000000000000000000000000000000,
  0x480000000000eb1256000000000020303b,
  0x49000000000075892b000000000095b966,
  0x4a00000000000000000000000000000000,
  0x4b000000000075892b000000000100c654,
  0x4c0000000000f5ec55000000000080632a,
  0x4d00000000000000000000000000000000,
  0x4e0000000000ffdbef00000000000ad9ff,
  0x4f00000000009034f600000000009b0ef5,
  0x5000000000000000000000000000000000,
  0x5100000000000000000000000000000000,
  0x520000000000481a7b0000000001177dac,
  0x530000000000481a7b0000000000d3d951,
  0x5400000000000000000000000000000000,
  0x550000000000dcc591000000000045df6b,
  0x560000000000d731e9000000000045df6b,
  0x5700000000000000000000000000000000,
  0x58000000000048a93f000000000114b3d8,
  0x59000000000048a93f0000000000d3032b,
  0x5a00000000000000000000000000000000,
  0x5b00000000000000000000000000000000,
  0x5c00000000008dd63500000000013ac69c,
  0x5d00000000008dd63500000000012b3983,
  0x5e00000000000000000000000000000000,
  0x5f0000000000ccfac300000000005e3ec0,
  0x600000000000fc1a2300000000002f1f60,
  0x6100000000000000000000000000000000,
  0x620000000000ccfac3000000000075ce70,
  0x630000000000ccfac300000000003ae738,
  0x6400000000000000000000000000000000,
  0x6500000000000000000000000000000000,
  0x660000000000dbb491000000000049a106,
  0x670000000000dbb491000000000024d083,
  0x6800000000000000000000000000000000,
  0x69000000000080428a0000000001385519,
  0x6a00000000004021450000000001385519,
  0x6b00000000000000000000000000000000,
  0x6c0000000000c48c6f00000000007c19ea,
  0x6d0000000000c48c6f00000000003e0cf5,
  0x6e00000000000000000000000000000000,
  0x6f00000000000000000000000000000000,
  0x7000000000010000000000000000bcc043,
  0x71000000000080000000000000013cc043,
  0x7200000000000000000000000000000000,
  0x73000000000040000000000000012fc14f,
  0x74000000000020000000000000010fc14f,
  0x7500000000000000000000000000000000,
  0x76000000000010000000000000010ec68b,
  0x770000000000080000000000000106c68b,
  0x7800000000000000000000000000000000,
  0x7900000000000000000000000000000000,
  0x7a0000000000020000000000000101e0b7,
  0x7b00000000000000000000000000000000,
  0x7c00000000000000000000000000000000,
  0x7d00000000000080000000000001006393,
  0x7e00000000000040000000000001002393,
  0x7f00000000000000000000000000000000,
  0x80000000000000200000000000010011df,
  0x81000000000000100000000000010001df,
  0x8200000000000000000000000000000000,
  0x8300000000000000000000000000000000,
  0x840000000000000400000000000100015b,
  0x8500000000000000000000000000000000,
  0x8600000000000000000000000000000000,
  0x87000000000000010000000000010000c7,
  0x8800000000000000800000000001000047,
  0x8900000000000000000000000000000000,
  0x8a00000000000000400000000001000023,
  0x8b00000000000000200000000001000003,
  0x8c00000000000000000000000000000000,
  0x8d00000000000000000000000000000000,
  0x8e00000000000000080000000001000007,
  0x8f00000000000000000000000000000000,
  0x9000000000000000000000000000000000,
  0x9100000000000000020000000001000001,
  0x9200000000000000010000000001000001,
  0x9300000000000000000000000000000000,
  0x9400000000000000010000000001000001,
  0x9500000000000000010000000001000001,
  0x9600000000000000000000000000000000,
  0x9700000000000000000000000000000000,
  0x9800000000000000000000000000000000,
  0x9900000000000000000000000000000000,
  0x9a00000000000000000000000000000000,
  0x9b00000000000000010000000001000001,
  0x9c00000000000000010000000001000001,
  0x9d00000000000000000000000000000000,
  0x9e00000000000000050000000001000003,
  0x9f00000000000000050000000001000001,
  0xa000000000000000000000000000000000,
  0xa10000000000000019000000000100000a,
  0xa200000000000000190000000001000016,
  0xa300000000000000000000000000000000,
  0xa400000000000000000000000000000000,
  0xa5000000000000007d0000000001000006,
  0xa6000000000000007d0000000001000014,
  0xa700000000000000000000000000000000,
  0xa800000000000002710000000001000115,
  0xa900000000000002710000000001000251,
  0xaa00000000000000000000000000000000,
  0xab0000000000000c3500000000010002ef,
  0xac0000000000000c35000000000100033e,
  0xad00000000000000000000000000000000,
  0xae00000000000000000000000000000000,
  0xaf0000000000003d0900000000010018d6,
  0xb00000000000003d09000000000100144c,
  0xb100000000000000000000000000000000,
  0xb2000000000001312d0000000001008c19,
  0xb3000000000001312d0000000001006c72,
  0xb400000000000000000000000000000000,
  0xb5000000000005f5e1000000000105b9e9,
  0xb6000000000005f5e1000000000103035a,
  0xb700000000000000000000000000000000,
  0xb800000000000000000000000000000000,
  0xb900000000001dcd65000000000114598a,
  0xba00000000001dcd650000000001016259,
  0xbb00000000000000000000000000000000,
  0xbc00000000009502f900000000008f97df,
  0xbd00000000009502f90000000000924d6c,
  0xbe00000000000000000000000000000000,
  0xbf0000000000e8ffe300000000004926b6,
  0xc00000000000e8ffe3000000000024935b,
  0xc100000000000000000000000000000000,
  0xc200000000000000000000000000000000,
  0xc3000000000055ae7d00000000010c8f44,
  0xc40000000000dbf61f00000000008647a2,
  0xc500000000000000000000000000000000,
  0xc60000000000128aac0000000001058865,
  0xc700000000000945560000000001058865,
  0xc800000000000000000000000000000000,
  0xc90000000000172d570000000001137066,
  0xca0000000000b812e10000000000a0e58a,
  0xcb00000000000000000000000000000000,
  0xcc00000000000000000000000000000000,
  0xcd00000000008442d300000000010dfb06,
  0xce00000000008442d300000000010b4056,
  0xcf00000000000000000000000000000000,
  0xd000000000008442d300000000010f585e,
  0xd100000000008442d300000000010bef02,
  0xd200000000000000000000000000000000,
  0xd3000000000080d97700000000010a3a54,
  0xd4000000000080d9770000000000851d2a,
  0xd500000000000000000000000000000000,
  0xd600000000000000000000000000000000,
  0xd70000000000e28d7d0000000000236924,
  0xd800000000000000000000000000000000,
  0xd900000000000000000000000000000000,
  0xda0000000000f77eed000000000008da49,
  0xdb0000000000fc1c99000000000008da49,
  0xdc00000000000000000000000000000000,
  0xdd0000000000f5912600000000002c436d,
  0xde0000000000a70c000000000000d34f6d,
  0xdf00000000000000000000000000000000,
  0xe000000000000000000000000000000000,
  0xe1000000000029c3000000000001071421,
  0xe200000000000000000000000000000000,
  0xe300000000000000000000000000000000,
  0xe400000000000a70c0000000000104e8e5,
  0xe50000000000053860000000000104e8e5,
  0xe600000000000000000000000000000000,
  0xe700000000000d0cf000000000010a2145,
  0xe800000000000686780000000001039acd,
  0xe900000000000000000000000000000000,
  0xea00000000000000000000000000000000,
  0xeb00000000000828160000000001005791,
  0xec00000000000000000000000000000000,
  0xed00000000000000000000000000000000,
  0xee0000000000146437000000000110f34f,
  0xef000000000014643700000000010d050d,
  0xf000000000000000000000000000000000,
  0xf1000000000065f51300000000010b0dec,
  0xf2000000000065f513000000000151711c,
  0xf300000000000000000000000000000000,
  0xf400000000000000000000000000000000,
  0xf50000000000ac58430000000000545c47,
  0xf600000000000000000000000000000000,
  0xf700000000000000000000000000000000,
  0xf80000000000eab58b00000000003e5d48,
  0xf90000000000eab58b00000000001f2ea4,
  0xfa00000000000000000000000000000000,
  0xfb0000000000eab58b00000000004df49a,
  0xfc0000000000eab58b000000000026fa4d,
  0xfd00000000000000000000000000000000]

set_option maxRecDepth 100000 in
theorem gCertsSplit_ok : checkFrom (-151) (gCheck false) 0 gCertsSplit = true := by decide +kernel

def fCertsFull : List Nat := [
  0x10729d9000000000478e405,
  0x100000000010729d90000000004ce5aa1,
  0x200000000036af4270000000001b8dd16,
  0x300000000036af4270000000000dc6e8b,
  0x4000000000223b1590000000003001fe4,
  0x50000000001b217110000000003001fe4,
  0x600000000033227030000000001800ff2,
  0x70000000003f22efc0000000000c007f9,
  0x800000000037927700000000000c007f9,
  0x9000000000079078c0000000003c027dd,
  0xa0000000003fcaba30000000003c027dd,
  0xb0000000003de69c00000000003c027dd,
  0xc0000000003de69c00000000003472051,
  0xd0000000001ef34e00000000005365531,
  0xe0000000000f79a7000000000043ebac1,
  0xf00000000037e18bf000000000157eb71,
  0x1000000000026b021800000000062defa1,
  0x11000000000135810c0000000004f86e95,
  0x1200000000009ac08600000000045dae0f,
  0x13000000000305c29e0000000001f2abf7,
  0x14000000000182e14f0000000004f86e95,
  0x15000000000182e14f0000000004c08941,
  0x160000000003d82bf7000000000037e554,
  0x170000000003f41ea100000000001bf2aa,
  0x180000000003f41ea100000000000df955,
  0x190000000003e6254c000000000045dea9,
  0x1a0000000003964a9c0000000003dc2945,
  0x1b0000000001cb254e0000000003dc2945,
  0x1c0000000000e592a70000000004c1bbec,
  0x1d00000000018546a50000000002f6969e,
  0x1e00000000030091f400000000017b4b4f,
  0x1f0000000002fb944900000000017b4b4f,
  0x2000000000018048fa000000000467e697,
  0x210000000000c0247d000000000467e697,
  0x220000000000c0247d0000000004144e84,
  0x230000000003c0b6710000000000539813,
  0x240000000003c0b67100000000020a2742,
  0x250000000003c0b67100000000010513a1,
  0x26000000000367f8aa00000000010513a1,
  0x27000000000058bdc700000000040f28d0,
  0x280000000002b90ff6000000000260522f,
  0x2900000000015c87fb0000000005196225,
  0x2a00000000015c87fb000000000512f304,
  0x2b00000000015c87fb0000000005428978,
  0x2c00000000015c87fb00000000055a54b2,
  0x2d00000000015c87fb0000000004fb27ca,
  0x2e00000000015c87fb000000000536a3db,
  0x2f00000000015c87fb0000000004a61de6,
  0x3000000000015c87fb00000000050c1ee9,
  0x310000000002288a010000000002530ef3,
  0x3200000000023dcc7a0000000002530ef3,
  0x3300000000011ee63d000000000371f530,
  0x34000000000347703e0000000002530ef3,
  0x350000000003f6c7120000000002530ef3,
  0x360000000001fb638900000000044e727c,
  0x3700000000039f1ba80000000002aaba5d,
  0x380000000001cf8dd400000000047a4831,
  0x390000000000e7c6ea00000000047a4831,
  0x3a0000000001dc28350000000002aaba5d,
  0x3b00000000024371490000000004ee2ba6,
  0x3c000000000243714900000000027715d3,
  0x3d00000000025d438e0000000004d45961,
  0x3e0000000001f5fa7a00000000027715d3,
  0x3f000000000372131000000000027715d3,
  0x400000000001b9098800000000027715d3,
  0x410000000003af040200000000027715d3,
  0x420000000001d7820100000000027715d3,
  0x430000000002274bea00000000027715d3,
  0x4400000000035f3a1900000000027715d3,
  0x450000000002eb27f600000000027715d3,
  0x460000000003eca9ce00000000027715d3,
  0x470000000001f654e700000000027715d3,
  0x4800000000026a670a00000000027715d3,
  0x490000000003ac495800000000027715d3,
  0x4a0000000001d624ac00000000027715d3,
  0x4b0000000001c975e300000000027715d3,
  0x4c00000000022045db00000000027715d3,
  0x4d00000000024badd700000000027715d3,
  0x4e00000000019e0de700000000027715d3,
  0x4f00000000020a91dd00000000027715d3,
  0x50000000000240d3d800000000027715d3,
  0x510000000003977fbf00000000027715d3,
  0x520000000003977fbf00000000018cede2,
  0x530000000003977fbf0000000000c676f1,
  0x540000000003977fbf00000000022efb58,
  0x5500000000020a91dd0000000002f57249,
  0x560000000002800213000000000575745c,
  0x57000000000280021300000000053abc41,
  0x5800000000020a91dd00000000053abc41,
  0x590000000003a2a70f0000000001981532,
  0x5a0000000003a2a70f0000000000cc0a99,
  0x5b00000000023758d400000000053abc41,
  0x5c0000000003a2a70f0000000007721515,
  0x5d0000000003a2a70f0000000001e7b703,
  0x5e0000000002c52f090000000001e7b703,
  0x5f000000000349192100000000010a3efd,
  0x60000000000333eb0c00000000010a3efd,
  0x61000000000199f58600000000043e2a09,
  0x6200000000008fb689000000000413cddf,
  0x6300000000008fb6890000000003712f46,
  0x640000000002484e2c0000000001b897a3,
  0x650000000002dcbeb90000000001b897a3,
  0x660000000003fc2bcb0000000001b897a3,
  0x670000000002da61b70000000001b897a3,
  0x680000000002497cad0000000001b897a3,
  0x69000000000090e50a000000000413cddf,
  0x6a0000000000487285000000000413cddf,
  0x6b000000000048728500000000042941d5,
  0x6c00000000016a3c9900000000042941d5,
  0x6d0000000002c9bf3700000000015f829e,
  0x6e0000000002c9bf370000000003798086,
  0x6f0000000002c9bf370000000001bcc043,
  0x700000000003e178260000000000afc14f,
  0x7100000000040000000000000000afc14f,
  0x7200000000020000000000000004afc14f,
  0x73000000000200000000000000056ec68b,
  0x74000000000100000000000000046ec68b,
  0x75000000000080000000000000046ec68b,
  0x760000000000800000000000000429e0b7,
  0x770000000000400000000000000429e0b7,
  0x780000000000200000000000000409e0b7,
  0x790000000000100000000000000409e0b7,
  0x7a00000000001000000000000004016393,
  0x7b00000000000800000000000004016393,
  0x7c00000000000400000000000004016393,
  0x7d0000000000040000000000000402f1df,
  0x7e0000000000020000000000000400f1df,
  0x7f0000000000010000000000000400f1df,
  0x800000000000010000000000000400b95b,
  0x810000000000008000000000000400395b,
  0x820000000000004000000000000400395b,
  0x830000000000002000000000000400195b,
  0x8400000000000020000000000004001ec7,
  0x8500000000000010000000000004000ec7,
  0x86000000000000080000000000040006c7,
  0x87000000000000080000000000040001e3,
  0x88000000000000040000000000040001e3,
  0x89000000000000020000000000040001e3,
  0x8a0000000000000200000000000400016f,
  0x8b0000000000000100000000000400006f,
  0x8c0000000000000080000000000400006f,
  0x8d0000000000000040000000000400002f,
  0x8e0000000000000040000000000400002b,
  0x8f0000000000000020000000000400000b,
  0x900000000000000010000000000400000b,
  0x9100000000000000100000000004000007,
  0x9200000000000000080000000004000007,
  0x9300000000000000040000000004000003,
  0x9400000000000000040000000004000003,
  0x9500000000000000020000000004000001,
  0x9600000000000000010000000004000001,
  0x9700000000000000010000000004000001,
  0x9800000000000000010000000004000001,
  0x9900000000000000010000000004000001,
  0x9a00000000000000010000000004000001,
  0x9b00000000000000050000000004000004,
  0x9c00000000000000050000000004000005,
  0x9d00000000000000050000000004000003,
  0x9e00000000000000190000000004000012,
  0x9f00000000000000190000000004000002,
  0xa000000000000000190000000004000013,
  0xa1000000000000007d000000000400005e,
  0xa2000000000000007d0000000004000073,
  0xa3000000000000007d000000000400003f,
  0xa4000000000000007d0000000004000025,
  0xa50000000000000271000000000400011f,
  0xa60000000000000271000000000400018f,
  0xa7000000000000027100000000040001c7,
  0xa80000000000000c3500000000040006a9,
  0xa90000000000000c350000000004000454,
  0xaa0000000000000c350000000004000944,
  0xab0000000000003d0900000000040021ae,
  0xac0000000000003d09000000000400305b,
  0xad0000000000003d09000000000400192d,
  0xae0000000000003d090000000004000d96,
  0xaf000000000001312d000000000400c4b1,
  0xb0000000000001312d0000000004006358,
  0xb1000000000001312d000000000400cb42,
  0xb2000000000005f5e1000000000401fc6f,
  0xb3000000000005f5e100000000040492be,
  0xb4000000000005f5e1000000000402e2f5,
  0xb500000000001dcd65000000000402e2f5,
  0xb600000000001dcd6500000000040afbe2,
  0xb700000000001dcd6500000000040021a6,
  0xb800000000001dcd6500000000041881ed,
  0xb900000000009502f900000000048fb781,
  0xba00000000009502f90000000004516628,
  0xbb00000000009502f900000000047cbef8,
  0xbc0000000002e90edd00000000063bc7e3,
  0xbd0000000002e90edd0000000001a95c83,
  0xbe0000000002e90edd00000000024935b0,
  0xbf00000000009fd92d00000000048fb781,
  0xc000000000009fd92d00000000047753de,
  0xc100000000009fd92d00000000037b5c49,
  0xc200000000020d9abb00000000037b5c49,
  0xc30000000003ed26420000000000cde861,
  0xc40000000002c47b82000000000656df65,
  0xc50000000001623dc10000000004f4a1a4,
  0xc60000000003b393410000000000cde861,
  0xc700000000030ea6320000000003dc8e93,
  0xc80000000001875319000000000563e1ac,
  0xc9000000000187531900000000040589e5,
  0xca000000000187531900000000044dc198,
  0xcb000000000187531900000000053586fe,
  0xcc000000000187531900000000029ac37f,
  0xcd00000000038288e500000000009f8db3,
  0xce0000000002110b4c0000000004c1a44b,
  0xcf00000000010885a60000000004c1a44b,
  0xd00000000001717d990000000003b91ea5,
  0xd10000000002954e1f00000000064e6cc4,
  0xd20000000002954e1f0000000005bc8481,
  0xd3000000000374e3750000000003273662,
  0xd4000000000374e3750000000001939b31,
  0xd50000000002843f530000000001939b31,
  0xd600000000020bed4200000000039f8873,
  0xd7000000000374e37500000000011b4920,
  0xd8000000000374e37500000000008da490,
  0xd90000000003bbb5bd000000000046d248,
  0xda0000000002a06c9d0000000001621b68,
  0xdb0000000003517a510000000000b10db4,
  0xdc0000000003aa012b00000000005886da,
  0xdd0000000002a06c9d0000000001baa242,
  0xde00000000037dbdbe0000000000dd5121,
  0xdf00000000029c3000000000000615b121,
  0xe000000000014e18000000000004c79921,
  0xe100000000014e180000000000045295a5,
  0xe20000000000a70c0000000000045295a5,
  0xe3000000000053860000000000045295a5,
  0xe40000000001a19e000000000005a0ada5,
  0xe50000000000d0cf000000000004cfdea5,
  0xe600000000006867800000000004677725,
  0xe700000000020a05800000000006091525,
  0xe800000000010502c00000000005041265,
  0xe900000000008281600000000004819105,
  0xea00000000004140b00000000004405055,
  0xeb00000000014643700000000004c2d1b5,
  0xec0000000000a321b800000000041faffd,
  0xed00000000005190dc00000000041faffd,
  0xee000000000197d44c0000000004c2d1b5,
  0xef0000000000cbea260000000004c2d1b5,
  0xf0000000000065f51300000000045cdca2,
  0xf10000000001fdc95f000000000528c6c8,
  0xf20000000001fdc95f0000000004922cc3,
  0xf30000000001fdc95f000000000545c470,
  0xf40000000001fdc95f0000000002a2e238,
  0xf5000000000158b0860000000004922cc3,
  0xf60000000000ac58430000000004922cc3,
  0xf70000000003f7f30900000000034b9ac6,
  0xf80000000003f7f30900000000009a39ba,
  0xf90000000003f7f30900000000004d1cdd,
  0xfa0000000003f7f30900000000022287f3,
  0xfb0000000001d56b1600000000052c667d,
  0xfc0000000000eab58b000000000441b0f2,
  0xfd0000000000eab58b0000000004e0f91a]

set_option maxRecDepth 100000 in
theorem fCertsFull_ok : checkFrom (-151) (fCheck true) 0 fCertsFull = true := by decide +kernel

def gCertsFull : List Nat := [
  0x0,
  0x100000000000000000000000000000000,
  0x200000000008e43c0000000000078e619,
  0x300000000004721e00000000000c007f9,
  0x400000000000000000000000000000000,
  0x50000000000b1d4b00000000000c007f9,
  0x6000000000058ea580000000000c007f9,
  0x700000000000000000000000000000000,
  0x800000000000000000000000000000000,
  0x900000000006f24ee0000000000c007f9,
  0xa0000000000f79a700000000000c007f9,
  0xb00000000000000000000000000000000,
  0xc00000000007bcd3800000000015525c5,
  0xd00000000003de69c0000000001173f29,
  0xe00000000000000000000000000000000,
  0xf00000000001ef34e00000000011a04d5,
  0x1000000000000f79a700000000010a8b2e,
  0x1100000000000000000000000000000000,
  0x1200000000000000000000000000000000,
  0x1300000000004d60430000000001041373,
  0x1400000000000000000000000000000000,
  0x1500000000000000000000000000000000,
  0x160000000000ba73fd0000000000c86d52,
  0x170000000000ba73fd00000000006436a9,
  0x1800000000000000000000000000000000,
  0x190000000000e592a70000000000f38bfc,
  0x1a0000000000e592a7000000000079c5fe,
  0x1b00000000000000000000000000000000,
  0x1c00000000000000000000000000000000,
  0x1d0000000000e592a70000000000256e2a,
  0x1e00000000000000000000000000000000,
  0x1f00000000000000000000000000000000,
  0x2000000000008edbf300000000017b4b4f,
  0x2100000000008edbf300000000007637ae,
  0x2200000000000000000000000000000000,
  0x230000000000e29c0f0000000000227792,
  0x240000000000f3d7d80000000000113bc9,
  0x2500000000000000000000000000000000,
  0x2600000000000000000000000000000000,
  0x2700000000002bba2d00000000010513a1,
  0x2800000000000000000000000000000000,
  0x2900000000000000000000000000000000,
  0x2a00000000008dcab70000000000cebd44,
  0x2b0000000000f529590000000000675ea2,
  0x2c00000000000000000000000000000000,
  0x2d00000000005a1b660000000001026c95,
  0x2e00000000002d0db30000000001026c95,
  0x2f00000000000000000000000000000000,
  0x3000000000000000000000000000000000,
  0x310000000000e1447f00000000001ed0df,
  0x3200000000000000000000000000000000,
  0x3300000000000000000000000000000000,
  0x340000000000b0a79700000000006e3ea6,
  0x350000000000e7c6ea0000000000371f53,
  0x3600000000000000000000000000000000,
  0x37000000000073e3750000000001139c9f,
  0x380000000000c3c00a00000000004fdc95,
  0x3900000000000000000000000000000000,
  0x3a000000000073e375000000000101992f,
  0x3b000000000073e3750000000000babe52,
  0x3c00000000000000000000000000000000,
  0x3d00000000000000000000000000000000,
  0x3e0000000000dc84c40000000000521d03,
  0x3f0000000000c05f650000000000521d03,
  0x4000000000000000000000000000000000,
  0x41000000000037213100000000012c4ead,
  0x42000000000037213100000000011ffa51,
  0x4300000000000000000000000000000000,
  0x440000000000e2aef20000000000b1b7ef,
  0x4500000000007157790000000001230f68,
  0x4600000000000000000000000000000000,
  0x4700000000000000000000000000000000,
  0x480000000000eb1256000000000020303b,
  0x49000000000075892b000000000095b966,
  0x4a00000000000000000000000000000000,
  0x4b000000000075892b000000000100c654,
  0x4c0000000000f5ec55000000000080632a,
  0x4d00000000000000000000000000000000,
  0x4e0000000000ffdbef00000000000ad9ff,
  0x4f00000000009034f600000000009b0ef5,
  0x5000000000000000000000000000000000,
  0x5100000000000000000000000000000000,
  0x520000000000481a7b0000000001177dac,
  0x530000000000481a7b0000000000d3d951,
  0x5400000000000000000000000000000000,
  0x550000000000dcc591000000000045df6b,
  0x560000000000d731e9000000000045df6b,
  0x5700000000000000000000000000000000,
  0x58000000000048a93f000000000114b3d8,
  0x59000000000048a93f0000000000d3032b,
  0x5a00000000000000000000000000000000,
  0x5b00000000000000000000000000000000,
  0x5c00000000008dd63500000000013ac69c,
  0x5d00000000008dd63500000000012b3983,
  0x5e00000000000000000000000000000000,
  0x5f0000000000ccfac300000000005e3ec0,
  0x600000000000fc1a2300000000002f1f60,
  0x6100000000000000000000000000000000,
  0x620000000000ccfac3000000000075ce70,
  0x630000000000ccfac300000000003ae738,
  0x6400000000000000000000000000000000,
  0x6500000000000000000000000000000000,
  0x660000000000dbb491000000000049a106,
  0x670000000000dbb491000000000024d083,
  0x6800000000000000000000000000000000,
  0x69000000000080428a0000000001385519,
  0x6a00000000004021450000000001385519,
  0x6b00000000000000000000000000000000,
  0x6c0000000000c48c6f00000000007c19ea,
  0x6d0000000000c48c6f00000000003e0cf5,
  0x6e00000000000000000000000000000000,
  0x6f00000000000000000000000000000000,
  0x7000000000010000000000000000bcc043,
  0x71000000000080000000000000013cc043,
  0x7200000000000000000000000000000000,
  0x73000000000040000000000000012fc14f,
  0x74000000000020000000000000010fc14f,
  0x7500000000000000000000000000000000,
  0x76000000000010000000000000010ec68b,
  0x770000000000080000000000000106c68b,
  0x7800000000000000000000000000000000,
  0x7900000000000000000000000000000000,
  0x7a0000000000020000000000000101e0b7,
  0x7b00000000000000000000000000000000,
  0x7c00000000000000000000000000000000,
  0x7d00000000000080000000000001006393,
  0x7e00000000000040000000000001002393,
  0x7f00000000000000000000000000000000,
  0x80000000000000200000000000010011df,
  0x81000000000000100000000000010001df,
  0x8200000000000000000000000000000000,
  0x8300000000000000000000000000000000,
  0x840000000000000400000000000100015b,
  0x8500000000000000000000000000000000,
  0x8600000000000000000000000000000000,
  0x87000000000000010000000000010000c7,
  0x8800000000000000800000000001000047,
  0x8900000000000000000000000000000000,
  0x8a00000000000000400000000001000023,
  0x8b00000000000000200000000001000003,
  0x8c00000000000000000000000000000000,
  0x8d00000000000000000000000000000000,
  0x8e00000000000000080000000001000007,
  0x8f00000000000000000000000000000000,
  0x9000000000000000000000000000000000,
  0x9100000000000000020000000001000001,
  0x9200000000000000010000000001000001,
  0x9300000000000000000000000000000000,
  0x9400000000000000010000000001000001,
  0x9500000000000000010000000001000001,
  0x9600000000000000000000000000000000,
  0x9700000000000000000000000000000000,
  0x9800000000000000000000000000000000,
  0x9900000000000000000000000000000000,
  0x9a00000000000000000000000000000000,
  0x9b00000000000000010000000001000001,
  0x9c00000000000000010000000001000001,
  0x9d00000000000000000000000000000000,
  0x9e00000000000000050000000001000003,
  0x9f00000000000000050000000001000001,
  0xa000000000000000000000000000000000,
  0xa10000000000000019000000000100000a,
  0xa200000000000000190000000001000016,
  0xa300000000000000000000000000000000,
  0xa400000000000000000000000000000000,
  0xa5000000000000007d0000000001000006,
  0xa6000000000000007d0000000001000014,
  0xa700000000000000000000000000000000,
  0xa800000000000002710000000001000115,
  0xa900000000000002710000000001000251,
  0xaa00000000000000000000000000000000,
  0xab0000000000000c3500000000010002ef,
  0xac0000000000000c35000000000100033e,
  0xad00000000000000000000000000000000,
  0xae00000000000000000000000000000000,
  0xaf0000000000003d0900000000010018d6,
  0xb00000000000003d09000000000100144c,
  0xb100000000000000000000000000000000,
  0xb2000000000001312d0000000001008c19,
  0xb3000000000001312d0000000001006c72,
  0xb400000000000000000000000000000000,
  0xb5000000000005f5e1000000000105b9e9,
  0xb6000000000005f5e1000000000103035a,
  0xb700000000000000000000000000000000,
  0xb800000000000000000000000000000000,
  0xb900000000001dcd65000000000114598a,
  0xba00000000001dcd650000000001016259,
  0xbb00000000000000000000000000000000,
  0xbc00000000009502f900000000008f97df,
  0xbd00000000009502f90000000000924d6c,
  0xbe00000000000000000000000000000000,
  0xbf0000000000e8ffe300000000004926b6,
  0xc00000000000e8ffe3000000000024935b,
  0xc100000000000000000000000000000000,
  0xc200000000000000000000000000000000,
  0xc3000000000055ae7d00000000010c8f44,
  0xc40000000000dbf61f00000000008647a2,
  0xc500000000000000000000000000000000,
  0xc60000000000128aac0000000001058865,
  0xc700000000000945560000000001058865,
  0xc800000000000000000000000000000000,
  0xc90000000000172d570000000001137066,
  0xca0000000000b812e10000000000a0e58a,
  0xcb00000000000000000000000000000000,
  0xcc00000000000000000000000000000000,
  0xcd00000000008442d300000000010dfb06,
  0xce00000000008442d300000000010b4056,
  0xcf00000000000000000000000000000000,
  0xd000000000008442d300000000010f585e,
  0xd100000000008442d300000000010bef02,
  0xd200000000000000000000000000000000,
  0xd3000000000080d97700000000010a3a54,
  0xd4000000000080d9770000000000851d2a,
  0xd500000000000000000000000000000000,
  0xd600000000000000000000000000000000,
  0xd70000000000e28d7d0000000000236924,
  0xd800000000000000000000000000000000,
  0xd900000000000000000000000000000000,
  0xda0000000000f77eed000000000008da49,
  0xdb0000000000fc1c99000000000008da49,
  0xdc00000000000000000000000000000000,
  0xdd0000000000f5912600000000002c436d,
  0xde0000000000a70c000000000000d34f6d,
  0xdf00000000000000000000000000000000,
  0xe000000000000000000000000000000000,
  0xe1000000000029c3000000000001071421,
  0xe200000000000000000000000000000000,
  0xe300000000000000000000000000000000,
  0xe400000000000a70c0000000000104e8e5,
  0xe50000000000053860000000000104e8e5,
  0xe600000000000000000000000000000000,
  0xe700000000000d0cf000000000010a2145,
  0xe800000000000686780000000001039acd,
  0xe900000000000000000000000000000000,
  0xea00000000000000000000000000000000,
  0xeb00000000000828160000000001005791,
  0xec00000000000000000000000000000000,
  0xed00000000000000000000000000000000,
  0xee0000000000146437000000000110f34f,
  0xef000000000014643700000000010d050d,
  0xf000000000000000000000000000000000,
  0xf1000000000065f51300000000010b0dec,
  0xf2000000000065f513000000000151711c,
  0xf300000000000000000000000000000000,
  0xf400000000000000000000000000000000,
  0xf50000000000ac58430000000000545c47,
  0xf600000000000000000000000000000000,
  0xf700000000000000000000000000000000,
  0xf80000000000eab58b00000000003e5d48,
  0xf90000000000eab58b00000000001f2ea4,
  0xfa00000000000000000000000000000000,
  0xfb0000000000eab58b00000000004df49a,
  0xfc0000000000eab58b000000000026fa4d,
  0xfd00000000000000000000000000000000]

set_option maxRecDepth 100000 in
theorem gCertsFull_ok : checkFrom (-151) (gCheck true) 0 gCertsFull = true := by decide +kernel

end Grisu.Ryu
