import Verif.Proofs.ExpTable

/-! # Certificates for the binary64 exponents 451 to 960

Generated: entry `i * 2^128 + b * 2^64 + d` holds the denominators of the Stern-Brocot neighbours for
the exponent `min_exponent + i`. -/

namespace Grisu

def certs64_3 : List Nat := [
  0x6000055f1b49900651c0039880fd053978d,
  0x601002af8da4c80328e008f79c46953fca9,
  0x602002af8da4c80328e009ebdc02c215e17,
  0x60300157c6d264019470089415305e144d0,
  0x60400157c6d26401947008515f0f5b0ee3d,
  0x605006b6e21bf407e6300db07a58eb15359,
  0x606006b6e21bf407e630037ccc1e7b86a7b,
  0x607006b6e21bf407e6300519d71d37c746f,
  0x608005e85c9c95e796900519d71d37c746f,
  0x609005e85c9c95e796900db07a58eb15359,
  0x60a005e85c9c95e7969003e40ede2a96cf8,
  0x60b005e85c9c95e7969007da640bab32fe5,
  0x60c005faa2ebebecf5e007da640bab32fe5,
  0x60d002fd5175f5f67af007da640bab32fe5,
  0x60e0056bdac0d094bca007da640bab32fe5,
  0x60f006896b1707452f2001dfc11fbf46087,
  0x61000344b58b83a29790052476ab42e8a00,
  0x611005d6f0e12516e79002923b55a174500,
  0x612007200e8bf5d10f9001491daad0ba280,
  0x61300757bc0ddd15ddd001491daad0ba280,
  0x614007fc4ae34572f1d000a48ed5685d140,
  0x615007fc4ae34572f1d00052476ab42e8a0,
  0x616007c990c1f910d1100052476ab42e8a0,
  0x617007f2b47753281610002923b55a17450,
  0x618007f2b47753281610001491daad0ba28,
  0x619007a06d0c9ef98c100066d945613a2c8,
  0x61a007d3d9af4f96a25000336ca2b09d164,
  0x61b007ed9000a7e52d700019b651584e8b2,
  0x61c007fa6b29540c7300000cdb28ac27459,
  0x61d007fa6b29540c7300004047cb5cc45bd,
  0x61e007c16a7f19879ab0004047cb5cc45bd,
  0x61f007c50e0faaa75c70004047cb5cc45bd,
  0x620007447e78f11ea4d0014166f8cfd5cb1,
  0x621006c5c0aa8025ce10014166f8cfd5cb1,
  0x622007c7c8bc177f2dc0014166f8cfd5cb1,
  0x6230068661c347a962b0064702dc0f2cf75,
  0x62400666b24fab6b2d00064702dc0f2cf75,
  0x625003335927d5b59680064702dc0f2cf75,
  0x6260068661c347a962b002f3fa409d392b2,
  0x6270068661c347a962b00179fd204e9c959,
  0x628004002f71cb22fc20057a2c9219bf91b,
  0x6290020017b8e5917e10077a444aff510fc,
  0x62a000861a9896f4e880086e26d2b6f8bcd,
  0x62b000430d4c4b7a7440082b19866b7e489,
  0x62c0002186a625bd3a20080992e045c10e7,
  0x62d0002186a625bd3a20081a015f3eaca79,
  0x62e00010c35312de9d1008093e0c2bce0a8,
  0x62f00010c35312de9d10080329d194f2721,
  0x63000053d09f5e5911500846371de06ce65,
  0x63100053d09f5e591150083acb570b8fcb9,
  0x632005ea61180cb1c50005969078ae58b3b,
  0x633002f5308c0658e280088bc104b4b1963,
  0x634006e5d2f627bcf8f002a15feca7ffd13,
  0x63500764f95e0fde364002a15feca7ffd13,
  0x636003b27caf07ef1b200a06594ab7de077,
  0x637007f6efb887ac42e002a15feca7ffd13,
  0x6380069cd7c8ebd5f2a002a15feca7ffd13,
  0x6390034e6be475eaf95005efcbd11deaca8,
  0x63a006029bc3ad9799d002a15feca7ffd13,
  0x63b006f35dc4d2cb86b002a15feca7ffd13,
  0x63c004ca5ed8bd65abf00c361d9e22cb291,
  0x63d004ca5ed8bd65abf003b5df62b2b2be9,
  0x63e006f35dc4d2cb86b0018ce0769d4ce3d,
  0x63f004401f1db80c35400a0d1eb20d654e5,
  0x640002200f8edc061aa00a0d1eb20d654e5,
  0x641006f35dc4d2cb86b003acf0057952fe7,
  0x6420055026e5260f429003acf0057952fe7,
  0x6430055026e5260f4290047e8b754fb1208,
  0x64400621c254fc6d64a00209b925cc96ba5,
  0x64500310e12a7e36b250082b7b7ac9041ef,
  0x64600310e12a7e36b25008af0f7d21d41af,
  0x64700310e12a7e36b25005dff853d00566a,
  0x64800041ca012c67fe0008224db39bb1b39,
  0x64900020e5009633ff00080168b3057db49,
  0x64a0001072804b19ff80080168b3057db49,
  0x64b000523c817781fd800811db335097b41,
  0x64c000291e40bbc0fec00811db335097b41,
  0x64d000148f205de07f600811db335097b41,
  0x64e00066cba1d5627ce0083af9740c58b2d,
  0x64f0003365d0eab13e70080793a321a7746,
  0x6500076d8cb12698dfa0073a26e03be7a13,
  0x651003b6c658934c6fd00af0ed38cf34110,
  0x652004845d9c3e11699003836087a89b316,
  0x653006460de0125f024001c1b043d44d98b,
  0x654006a66777b1cab28001c1b043d44d98b,
  0x655006a66777b1cab280022209db73b948f,
  0x6560035333bbd8e5594008c871532583fb7,
  0x657001a999ddec72aca008c871532583fb7,
  0x658001a999ddec72aca00900976b562bc01,
  0x659000d4cceef6395650082bca7c5ff269c,
  0x65a000d4cceef6395650083de5e8ff17e47,
  0x65b000d4cceef639565008b15a16c9c74cf,
  0x65c000d4cceef6395650088d233d8b7c579,
  0x65d000d4cceef639565008042bd219c0303,
  0x65e000d4cceef639565008947d0b571b72d,
  0x65f0042800aacf1eaf900a3e16e9438e1f7,
  0x6600042800aacf1eaf900b5b0c74d875171,
  0x6610042800aacf1eaf9007c1868fd3c9e35,
  0x662004b67b7099922b600b5b0c74d875171,
  0x6630025b3db84cc915b008ffcebc8bac016,
  0x664006db2516929f1660047fe75e45d600b,
  0x6650036d928b494f8b300b5b0c74d875171,
  0x66600148e8e55042a03007ed79e98f258be,
  0x6670053fa5da17d5662003f6bcf4c792c5f,
  0x668006968fe1d37d790003f6bcf4c792c5f,
  0x669003e8bbd25c2d5340054da6fc833ad8d,
  0x66a001f45de92e16a9a0074204e5b151827,
  0x66b000fa2ef4970b54d0074204e5b151827,
  0x66c004e2eac6f338a81004537807ec2f840,
  0x66d0070ca6cae9506a100229bc03f617c20,
  0x66e0070ca6cae9506a100114de01fb0be10,
  0x66f0079715cbe6d65a90008a6f00fd85f08,
  0x670005f7c8c8ee44891002b42b04f39db28,
  0x67100751de4b68136250015a158279ced94,
  0x672007fee90ca4facef000ad0ac13ce76ca,
  0x673006a4d38a2b2bf5b0036135c630851f2,
  0x674006a4d38a2b2bf5b001b09ae318428f9,
  0x6750042ab736a1b742a005db5219b9f9d23,
  0x676000c98170713223800873066f794ccdd,
  0x67700064c0b8389911c0080e45b740b3bc1,
  0x67800032605c1c4c88e0080e45b740b3bc1,
  0x67900019302e0e264470080e45b740b3bc1,
  0x67a0007df0e646bf5630082775e54eda008,
  0x67b0050f9cbf34ebaca00491abd8ee2c567,
  0x67c00287ce5f9a75d65009a148982318031,
  0x67d00287ce5f9a75d6500a31535ea29080a,
  0x67e00287ce5f9a75d6500a28466e8633ecf,
  0x67f00287ce5f9a75d65008dfd8c6aacab7f,
  0x68000287ce5f9a75d65008f1f2a6e383df5,
  0x68100287ce5f9a75d6500844aee2d972b12,
  0x68200287ce5f9a75d6500931f430a1a5053,
  0x6830046258fb2ada7e70042257716cb9589,
  0x6840044258364bc9eb80042257716cb9589,
  0x685002212c1b25e4f5c00864afa7b883441,
  0x68600110960d92f27ae00864afa7b883441,
  0x68700552ee43debc6660042257716cb9589,
  0x688002a97721ef5e333006cbce935c178bc,
  0x6890060f5e6b9d69f9100365e749ae0bc5e,
  0x68a0060f5e6b9d69f91004dec7992b66eb4,
  0x68b0060f5e6b9d69f910026f63cc95b375a,
  0x68c0060f5e6b9d69f91007471051e843b3e,
  0x68d004d7ac8552903e400aee2604c8d0e45,
  0x68e0026bd642a9481f2008824fc21f88c53,
  0x68f00135eb2154a40f9008824fc21f88c53,
  0x69000135eb2154a40f90087dded5b802991,
  0x6910060d97a6a7344dd004dc1d71ba166a6,
  0x6920060d97a6a7344dd0026e0eb8dd0b353,
  0x6930043dd32fc21fc18006abe1e89f2af6b,
  0x694001cfc476e5148c500886c0ae870ef15,
  0x695001cfc476e5148c5008cacb80803ad77,
  0x6960054d47fbb2a7b1e0037d8384cd93259,
  0x697000220568fc95f3100820b073914d182,
  0x698004766874be6865400454630bc1d2723,
  0x6990023b343a5f3432a008cacb80803ad77,
  0x69a0011d9a1d2f9a195008cacb80803ad77,
  0x69b005940291ee027e900571fd28f16c8b8,
  0x69c005940291ee027e9002b8fe9478b645c,
  0x69d006f081dc2a5da170015c7f4a3c5b22e,
  0x69e006f081dc2a5da17006ce7c732dc7ae6,
  0x69f006f081dc2a5da17003673e3996e3d73,
  0x6a00052be00ae0a0bc5003673e3996e3d73,
  0x6a1006f081dc2a5da1700509daa1e40ac94,
  0x6a2006f081dc2a5da1700284ed50f20564a,
  0x6a3006f081dc2a5da170014276a87902b25,
  0x6a4004197c4251b029e0055bf2eacab2dc3,
  0x6a5002d70599d8ad7790092356e435baf32,
  0x6a6002d70599d8ad77900768b10bf38af12,
  0x6a70068b5e1fd272f02003b45885f9c5789,
  0x6a8002d70599d8ad77900a00a9d056d2f42,
  0x6a9002d70599d8ad779007d75a820416f1a,
  0x6aa006c2b2dadab8f06003ebad41020b78d,
  0x6ab0065bc17f374c643003ebad41020b78d,
  0x6ac00523b7601cabee8003ebad41020b78d,
  0x6ad0067d88f11061701003ebad41020b78d,
  0x6ae005349b190936747003ebad41020b78d,
  0x6af005349b190936747003fc90f9ee95fec,
  0x6b0005349b19093674700c677eaf09b7e84,
  0x6b1005349b19093674700633bf5784dbf42,
  0x6b20043576da8d90f4c009312c12f7cc733,
  0x6b30021abb6d46c87a6009312c12f7cc733,
  0x6b40010d5db6a3643d300823ce5c5468360,
  0x6b500542d49130f531f00b4be7803e94ed9,
  0x6b600542d49130f531f00304897786cfddd,
  0x6b700542d49130f531f00423af045be287e,
  0x6b800754ac135ee675e00211d7822df143f,
  0x6b90011f258cd512aa10081aea713b90ff9,
  0x6ba005bc2d8bdd647ee0049d07ff0851d4d,
  0x6bb002de16c5eeb23f700a59358ae5b653b,
  0x6bc0051c61df98d79390049d07ff0851d4d,
  0x6bd004dcb4ef5094b430049d07ff0851d4d,
  0x6be004bcde772c734480049d07ff0851d4d,
  0x6bf0053c3857bcf90340049d07ff0851d4d,
  0x6c00073b242ae6ce5670049d07ff0851d4d,
  0x6c1005ec1614f79015a0049d07ff0851d4d,
  0x6c2002f60b0a7bc80ad00a891e13ffe1ea7,
  0x6c30068b466dac37441001a6fcf48c89ca0,
  0x6c40075ec4e7f27c291000d37e7a4644e50,
  0x6c5007c88425159e9b900069bf3d2322728,
  0x6c6007c88425159e9b900210bc31afac3c8,
  0x6c7007c88425159e9b9001085e18d7d61e4,
  0x6c8007c88425159e9b9000842f0c6beb0f2,
  0x6c9006c0260c3dc87d500294eb3e1b974ba,
  0x6ca006c0260c3dc87d50014a759f0dcba5d,
  0x6cb007e4aeb2cf2d0300014a759f0dcba5d,
  0x6cc003f2575967968180092f2451dcf8a8d,
  0x6cd003f25759679681800a66a374ac90be9,
  0x6ce001f92bacb3cb40c0086d77c7f8c57dd,
  0x6cf000fc95d659e5a060086d77c7f8c57dd,
  0x6d0004eeed2fc17c21e00a66a374ac90be9,
  0x6d1002777697e0be10f00a66a374ac90be9,
  0x6d2002777697e0be10f008e6839e276578b,
  0x6d30036ecd593c50dc0008e6839e276578b,
  0x6d4001b766ac9e286e0008e6839e276578b,
  0x6d5000dbb3564f143700080ad047d85141b,
  0x6d60006dd9ab278a1b80080ad047d85141b,
  0x6d7002254057c5b289800878a9f2ffdb5d3,
  0x6d800112a02be2d944c00878a9f2ffdb5d3,
  0x6d9000895015f16ca2600878a9f2ffdb5d3,
  0x6da002ae906db71f2be00878a9f2ffdb5d3,
  0x6db001574836db8f95f00878a9f2ffdb5d3,
  0x6dc0063f414bc9450f8004e7f914edb5799,
  0x6dd006b4691249cdedb00390b0de1225e3a,
  0x6de006b4691249cdedb001c8586f0912f1d,
  0x6df007cf119ebb96536001c8586f0912f1d,
  0x6e0006f5204b069aa04001c8586f0912f1d,
  0x6e10070b4103957333c001c8586f0912f1d,
  0x6e200716515fdcdf7d8001c8586f0912f1d,
  0x6e30038b28afee6fbec00553811ef782b09,
  0x6e400710c931b92958a00553811ef782b09,
  0x6e5003886498dc94ac500553811ef782b09,
  0x6e60046df2dbea0bae700553811ef782b09,
  0x6e7003886498dc94ac5008042be81fe7b6f,
  0x6e8003886498dc94ac5005c648407e3e31a,
  0x6e90066b88b91bb3c52002e324203f1f18d,
  0x6ea003886498dc94ac500ae750085f06cfc,
  0x6eb003886498dc94ac500573a8042f8367e,
  0x6ec00642389af456604002b9d40217c1b3f,
  0x6ed003211c4d7a2b302005daf04f91ece41,
  0x6ee003eface43efe288005daf04f91ece41,
  0x6ef007d2c6c1b16bf85005daf04f91ece41,
  0x6f0006d6db88a1ac6e3005daf04f91ece41,
  0x6f1000fbeb390fbf8a20089c65df8eea1fb,
  0x6f20007df59c87dfc510081e7043070a5aa,
  0x6f30007df59c87dfc510087cdaa24a631ae,
  0x6f40007df59c87dfc510087d11fad49f691,
  0x6f50007df59c87dfc510086d30afed3dbf9,
  0x6f60007df59c87dfc5100865400a798cead,
  0x6f70007df59c87dfc510086147b7bfb4807,
  0x6f80007df59c87dfc51008712902a71629f,
  0x6f90007df59c87dfc51008673c33d679200,
  0x6fa0007df59c87dfc51008234afe2a3ab88,
  0x6fb00275cc0ea75ed950091f363739fa42a,
  0x6fc00705672a445bfaa0048f9b1b9cfd215,
  0x6fd00382b395222dfd5008124eb0bf2b1ea,
  0x6fe005f87fa3c98cd6a0059c82a217cc455,
  0x6ff002fc3fd1e4c66b500898c273fc92b0a,
  0x70000748a10be30fc3a0044c6139fe49585,
  0x701003a45085f187e1d00b950245e1591bf,
  0x702006a09057d64e4d2004f471ee0b0aced,
  0x70300350482beb2726900844ba19f631f56,
  0x70400350482beb2726900772a538e640214,
  0x70500350482beb2726900abaf8bd260771c,
  0x70600350482beb27269008adc48a7e2adf7,
  0x70700350482beb272690094f4e871fd0299,
  0x708003f1d2288ccc70b008adc48a7e2adf7,
  0x7090064fcb59857ba810025df930f8af376,
  0x70a0064fcb59857ba8100dce934b874eebd,
  0x70b0064fcb59857ba81003bf63f900e9a1e,
  0x70c006e715e829241480012efc987c579bb,
  0x70d0070080bd8998dd50012efc987c579bb,
  0x70e00417beab02f83c80095e79ee824814b,
  0x70f0070080bd8998dd500675b7dbfba773e,
  0x7100070080bd8998dd50033adbedfdd3b9f,
  0x7110051dae55c3b64ba0033adbedfdd3b9f,
  0x712006be08fa6d8a87f00158098637f1284,
  0x7130076a0dbd89831c1000ac04c31bf8942,
  0x714007c0101f177f6620005602618dfc4a1,
  0x7150063a18ba6da5b98006901b1bfba2039,
  0x716005381195c3b0db5006e61d7d899e4da,
  0x717005381195c3b0db5003730ebec4cf26d,
  0x718007c89ee9090f27e003730ebec4cf26d,
  0x719000e2816b7f70da4008663b86dda33b9,
  0x71a0007140b5bfb86d2008663b86dda33b9,
  0x71b00038a05adfdc3690082d9b2bfdc7050,
  0x71c0011b21c65f4d10d008d77c3c9d5ba8b,
  0x71d0011b21c65f4d10d0084ab4549c3b8f3,
  0x71e004b2eb0d7dc450000397c9471e773f3,
  0x71f002597586bee22800084ab4549c3b8f3,
  0x720005ce0cd3dd1160d005f13ecddd59673,
  0x721005dfa5d0dd3564000bd0e49eba8ecb3,
  0x722002efd2e86e9ab20008e111b64bf4193,
  0x723007f28db01b3c41a0001198fd0024033,
  0x724007578f451482bd000ec0b78729297d3,
  0x725003abc7a28a415e800b14efe49ee81eb,
  0x7260038895a889f958200769284214a6c03,
  0x727001c44ad444fcac100769284214a6c03,
  0x72800496b98b2cd1b6200bffe1cd4178765,
  0x7290024b5cc59668db1009b48507ab0f9b4,
  0x72a0040fa799db6587200769284214a6c03,
  0x72b00207d3ccedb2c3900970fc0f025983c,
  0x72c006c051d46edf857004b87e07812cc1e,
  0x72d006c051d46edf8570035980a83941391,
  0x72e006c051d46edf8570050ce93e54105f4,
  0x72f006c051d46edf85700286749f2a082fa,
  0x730005fa964f5c038f500286749f2a082fa,
  0x7310073dd09ef107a72001433a4f950417d,
  0x73200768973e37901b0001433a4f950417d,
  0x7330077dfa8ddad454f001433a4f950417d,
  0x73400271114f86c3f5b00650238de914771,
  0x735004609a6eb7ec36600ab0bdfca100ad7,
  0x736002304d375bf61b30088070c5450a924,
  0x737007126fd6697e069001ef891f312840b,
  0x73800480fc7acd5323a006708599fe7b645,
  0x739002407e3d66a991d006708599fe7b645,
  0x73a004d1f19902d474c006708599fe7b645,
  0x73b00268f8cc816a3a6006708599fe7b645,
  0x73c007a502003f30818006708599fe7b645,
  0x73d003d281001f9840c00a43069a1e13a51,
  0x73e001347c6640b51d3008442568579b3d1,
  0x73f001347c6640b51d300859c61a0e4784b,
  0x740004c72140277e50f00392a4d9e6c933c,
  0x741006066dff438991f00392a4d9e6c933c,
  0x742007cfc06c36ee2bd001c9526cf36499e,
  0x743007cfc06c36ee2bd000e4a93679b24cf,
  0x744006eb1735bd3bdee004774e10607b80b,
  0x745007ecd9ab3f19702004774e10607b80b,
  0x746003f66cd59f8cb810086dbae6000838c,
  0x747002f4aa601daf26d0086dbae6000838c,
  0x7480072b87d31db343300436dd7300041c6,
  0x7490072b87d31db34330021b6eb980020e3,
  0x74a006bee9ffcedcb6e0021b6eb980020e3,
  0x74b002880c8cced89a8008011d12b131ac7,
  0x74c001440646676c4d4008011d12b131ac7,
  0x74d000a2032333b626a008011d12b131ac7,
  0x74e0032a0fb0028ec12009e7267c4c54205,
  0x74f0019507d80147609008521ea44b0cbfc,
  0x750005be172a26cdc07004290f5225865fe,
  0x751007e927380664e2d00294077a243eff5,
  0x7520053e97591551f11007d29ed33990f06,
  0x7530053e97591551f11003e94f699cc8783,
  0x75400493f361590d34a003e94f699cc8783,
  0x755000aaa3f7bc44bc700839a99c8f59d58,
  0x756000aaa3f7bc44bc70081cac9cb149556,
  0x757005639e3dd12e239004b8fa4614e9672,
  0x7580060e42358d72e00002b90e5ee01b31d,
  0x75900307211ac6b9700008c750946d8e11d,
  0x75a00183908d635cb80008c750946d8e11d,
  0x75b00791d2c2f0cf980005c02f79a6d4a1d,
  0x75c003c8e9617867cc00098918db1f3c6dd,
  0x75d001e474b0bc33e600098918db1f3c6dd,
  0x75e000f23a585e19f3000896de82c1227ad,
  0x75f004bb23b9d681bf000b6d8d8bdb7053d,
  0x7600025d91dceb40df80090ffbaef02f745,
  0x7610012ec8ee75a06fc0090ffbaef02f745,
  0x762005e9eca84c222ec00dcb1f68c6b1335,
  0x763002f4f654261117600ad62914a0a01bf,
  0x7640017a7b2a13088bb0095badea8d97904,
  0x7650076467d25f2aba700f459a92d9b9bf0,
  0x7660076467d25f2aba7007a2cd496cdcdf8,
  0x7670076467d25f2aba7003d166a4b66e6fc,
  0x7680076467d25f2aba7001e8b3525b3737e,
  0x7690057bb48003f38290040fcc1bc42094d,
  0x76a0057bb48003f3829004c5c04de40a0bb,
  0x76b00520ba66f3fec72004c5c04de40a0bb,
  0x76c005d6ae9913e83e00040fcc1bc42094d,
  0x76d002eb574c89f41f0006fb23684e14b3d,
  0x76e00175aba644fa0f8006fb23684e14b3d,
  0x76f0074c5a3f58e24d80040fcc1bc42094d,
  0x770003a62d1fac7126c007b5f93b7091bb9,
  0x771001d3168fd638936007b5f93b7091bb9,
  0x772000e98b47eb1c49b007b5f93b7091bb9,
  0x7730048fb867978d707004f95763af3cde8,
  0x7740070c64196f2bdfb0027cabb1d79e6f4,
  0x7750070c64196f2bdfb0013e55d8ebcf37a,
  0x77600351628eabbe38d00637ad3c9b0c162,
  0x7770066d392cf94443e0031bd69e4d860b1,
  0x778003369c967ca221f006527334ca282d0,
  0x77900351628eabbe38d0096e49d317ae381,
  0x77a0065fd630e1b63870030e73a235f7ffa,
  0x77b0065fd630e1b6387007e71001fcb2384,
  0x77c0065fd630e1b6387003f38800fe591c2,
  0x77d00787d97c1fdd8e20018739d11afbffd,
  0x77e006d2606045e6c6b0018739d11afbffd,
  0x77f0042ccd18b071634009e0d4027bdec65,
  0x7800042ccd18b07163400bd0ee2e375d625,
  0x78100216668c5838b1a009ba87a1df24b0b,
  0x7820010b33462c1c58d008af545bb30857e,
  0x78300538005edc8dbc100bd0ee2e375d625,
  0x78400538005edc8dbc10034c76e7ad67d32,
  0x78500538005edc8dbc100c163c318fcf61b,
  0x78600538005edc8dbc10036f1de959a0d2d,
  0x78700022a701ac38ffb0081c8241854a902,
  0x788004538f241b1747700430e8226ede47c,
  0x789004538f241b1747700abf92596d9db2c,
  0x78a004538f241b1747700a7a4456152bb36,
  0x78b004538f241b1747700990b14f25ad212,
  0x78c004538f241b174770091be7cbadedd80,
  0x78d003dec5a0a357fe500a057ad29d6c6a4,
  0x78e003dec5a0a357fe5008e18309f20e337,
  0x78f0066024554ab318e002815eb4a75b1a9,
  0x79000330122aa5598c7008e18309f20e337,
  0x791003dec5a0a357fe500832cf93f40fc19,
  0x792003dec5a0a357fe500608ca9a4bb3dff,
  0x793004f3c81d7785ef200608ca9a4bb3dff,
  0x794006a888c472820bd00608ca9a4bb3dff,
  0x79500658a9af5f1af5e00608ca9a4bb3dff,
  0x7960032c54d7af8d7af00608ca9a4bb3dff,
  0x797003cc1301d65ba6d00608ca9a4bb3dff,
  0x798004ea6ece1107c3600608ca9a4bb3dff,
  0x7990027537670883e1b00608ca9a4bb3dff,
  0x79a0043f0100aa1be0d00608ca9a4bb3dff,
  0x79b00320a5346f6fc4400608ca9a4bb3dff,
  0x79c007991d34836bc2100608ca9a4bb3dff,
  0x79d006d0f3e7678fd1000608ca9a4bb3dff,
  0x79e000c8294d1bdbf110084770946e7501f,
  0x79f000c8294d1bdbf11008709b7250742ed,
  0x7a0000c8294d1bdbf11007bd07942597d43,
  0x7a1000c8294d1bdbf1100832db257d756b8,
  0x7a2000c8294d1bdbf11008023c144a066b1,
  0x7a3000c8294d1bdbf110084e01323e3ce36,
  0x7a4003e8ce818b4bb5500785d7e52260f25,
  0x7a5005b7533356d653d00d3d2b187937462,
  0x7a6005b7533356d653d0069e958c3c9ba31,
  0x7a70062af45fc9b8fb700cc989ec06549e8,
  0x7a8005b7533356d653d00db0cc44ec19edc,
  0x7a9005b7533356d653d00c8fb955cce34ab,
  0x7aa005b7533356d653d0036c33113b067b7,
  0x7ab003752d5518690db0048d46005a3d1e8,
  0x7ac005bbd05545879cf00246a3002d1e8f4,
  0x7ad006df21d55c16e49001235180168f47a,
  0x7ae00251dbd501d9c61005b0978070cc662,
  0x7af0052a27953a3ff92002d84bc03866331,
  0x7b00056d5f8ad5862fa002d84bc03866331,
  0x7b1002b6afc56ac317d00845ab4b0dec62b,
  0x7b20029513ca9d1ffc9008674745db8f7df,
  0x7b30029513ca9d1ffc90057e2d883c57bd4,
  0x7b4005542a8ebb4bdb3002bf16c41e2bdea,
  0x7b50026b10d11c141a8005a83081bd639f5,
  0x7b60013588688e0a0d4006ddb8ea4b6dac9,
  0x7b7007787d1e9272b33006ddb8ea4b6dac9,
  0x7b800305d50563192120050d6c4d765e98b,
  0x7b900182ea82b18c9090069056d027eb294,
  0x7ba004cb15eac582253003482b6813f594a,
  0x7bb0066f2b9ecf7cef8001a415b409faca5,
  0x7bc003270036bb875ae008346c8431e5f39,
  0x7bd00193801b5dc3ad7008346c8431e5f39,
  0x7be00677766b25987df004e3f64fc7d4d08,
  0x7bf007e18088d4d2633004e3f64fc7d4d08,
  0x7c0007e18088d4d263300271fb27e3ea684,
  0x7c1007e18088d4d263300138fd93f1f5342,
  0x7c2002fd8a390cfd92b0061cf3e3b9ca04a,
  0x7c30060c042ae9e29500030e79f1dce5025,
  0x7c4006147c0751d64cd0030e79f1dce5025,
  0x7c50079ff4ee7442a9e0030e79f1dce5025,
  0x7c600183010aba78a540093c5d8e6696769,
  0x7c7000c180855d3c52a0087add09095a23f,
  0x7c800060c042ae9e2950081a1cc65abbfaa,
  0x7c900060c042ae9e29500801f9791c8a044,
  0x7ca00060c042ae9e295008293f9a0f10c89,
  0x7cb00060c042ae9e2950080c82893105161,
  0x7cc00060c042ae9e2950081eb689fa95b6c,
  0x7cd00060c042ae9e295008379e227e16a1d,
  0x7ce00060c042ae9e29500813b1cd688802b,
  0x7cf00060c042ae9e29500801bba2ddc0b32,
  0x7d0001e3c14d6916ce9008627be58c5edc7,
  0x7d100706dfe6e3d1a41005231e997abad58,
  0x7d200706dfe6e3d1a41002918f4cbd5d6ac,
  0x7d300475509a2674395003ed2b4b65eaa32,
  0x7d400475509a26743950066be63fd9698ae,
  0x7d5007ab43ba1328fec00335f31fecb4c57,
  0x7d60013f5d7a39bf73e008918ec2450b23f,
  0x7d70009faebd1cdfb9f008918ec2450b23f,
  0x7d80009faebd1cdfb9f00856b72e5e33ca9,
  0x7d90051ae1b2da697c30047b32f5bd89c24,
  0x7da007999ca74de863f0047b32f5bd89c24,
  0x7db007999ca74de863f0023d997adec4e12,
  0x7dc007999ca74de863f0011eccbd6f62709,
  0x7dd0043d366effc112400599ffb32cec32d,
  0x7de007b89aeaacccbbf00599ffb32cec32d,
  0x7df006a94d4eecdc77600599ffb32cec32d,
  0x7e00054c840abfb156d0048ab2176cfbee4,
  0x7e100791dd16762f4df00245590bb67df72,
  0x7e200791dd16762f4df00122ac85db3efb9,
  0x7e3007c24a5fba7417700122ac85db3efb9,
  0x7e4007c24a5fba74177005ad5e9d483ae9d,
  0x7e5007c24a5fba74177006b7d47e815780a,
  0x7e6007c24a5fba741770035bea3f40abc05,
  0x7e7007c24a5fba7417700146fe7cce7292b,
  0x7e8007c24a5fba7417700484a46e4473551,
  0x7e9006237766ff73b6400484a46e4473551,
  0x7ea0019ed2f8bb0061300801cb68c33d3ea,
  0x7eb0019ed2f8bb00613008dd5e9e929fc2e,
  0x7ec007ac5540bf50a3d0060d8248045042a,
  0x7ed007ac5540bf50a3d00306c1240228215,
  0x7ee0019ed2f8bb00613008a679d11ec721d,
  0x7ef0019ed2f8bb00613008604c5662e483e,
  0x7f0005cef923ec72a3200430262b317241f,
  0x7f10076dcc1ca773045006c1795da7e422b,
  0x7f200717a2bd27ab938006c1795da7e422b,
  0x7f30038bd15e93d5c9c00a4d4abc3bb9ec7,
  0x7f4003e1fabe139d3a9009f7215cbbf27ba,
  0x7f5003e1fabe139d3a9004fb90ae5df93dd,
  0x7f60046ec5b638cb3c30096a566496c47a0,
  0x7f70046ec5b638cb3c300923f0e8842d793,
  0x7f8007dd3f5b554c02b00046657c129700d,
  0x7f9007eb5f34b8338d200046657c129700d,
  0x7fa0059c1082cba3cb700b7e8681a9de97b,
  0x7fb0050f458aa675c9d00b7e8681a9de97b,
  0x7fc0050f458aa675c9d00337a07b81b466f,
  0x7fd004237303141518600b7e8681a9de97b]

set_option maxRecDepth 100000 in
theorem certs64_3_ok : checkAll .b64 (mainCheck .b64) 1536 certs64_3 = true := by decide +kernel

end Grisu
