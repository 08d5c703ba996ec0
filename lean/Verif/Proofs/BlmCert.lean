import Verif.Model.BlmTables

/-!
Generated by tools/gen_blm.py: certificates for the tables of `_small_multiplication_map`.

`smallRec d`: bit `t` of entry `k` says that product `k` contributes to the coefficient of `x^t`.
`smallSpan d`: bit `i` of entry `k` says that the `i`-th pair `(v,w)`, `v ≤ w` (ordered by `v`, then `w`), contributes to the unit vector `k`.
-/

namespace M4rie

def smallRec1 : List Nat := [0x1]

def smallSpan1 : List Nat := [0x1]

def smallRec2 : List Nat := [0x3, 0x2, 0x6]

def smallSpan2 : List Nat := [0x3, 0x2, 0x6]

def smallRec3 : List Nat := [0x7, 0xe, 0x1c, 0x2, 0x4, 0x8]

def smallSpan3 : List Nat := [0x7, 0x1a, 0x34, 0x2, 0x4, 0x10]

def smallRec4 : List Nat := [0xf, 0x1e, 0x3c, 0x78, 0x8, 0xa, 0xc, 0x18, 0x28]

def smallSpan4 : List Nat := [0xf, 0x5a, 0x18c, 0x348, 0x8, 0xa, 0xc, 0x48, 0x108]

def smallRec5 : List Nat := [0x77, 0x12, 0x90, 0x1dc, 0x6c, 0x36, 0xd8, 0x14, 0x50, 0x28, 0x24, 0x48, 0x38]

def smallSpan5 : List Nat := [0x917, 0xee, 0x38c8, 0x681c, 0x99c, 0x1ce, 0x28c0, 0xcc, 0x8c8, 0x140, 0x14c, 0x840, 0x1c0]

def smallRec6 : List Nat := [0x63, 0xfa, 0x2a8, 0x660, 0x318, 0x96, 0x1c8, 0xcc, 0x30, 0xd8, 0x158, 0x84, 0xa0, 0x78, 0xb8, 0x50, 0x40]

def smallSpan6 : List Nat := [0x423, 0x46d6, 0xece90, 0x180420, 0xa0018, 0x4016, 0x2c890, 0x4484, 0x210, 0x4c80, 0x20418, 0x4004, 0x4020, 0x438, 0x4038, 0x410, 0x400]

def smallRec7 : List Nat := [0xe0, 0x240, 0x48, 0x208, 0x88, 0x220, 0x2a8, 0x28a, 0x264, 0x90, 0xd8, 0x120, 0x360, 0x4c8, 0xa28, 0x77, 0x36, 0x1dc, 0x1b0, 0x770, 0xd80, 0x1dc0]

def smallSpan7 : List Nat := [0x1548, 0x200040, 0x48, 0x200520, 0x1520, 0x200508, 0x201408, 0x20100a, 0x20054c, 0x1538, 0x1248, 0x20508, 0x300060, 0x1001560, 0x4200028, 0x77, 0x682, 0x23144, 0x141260, 0x1600178, 0x6101420, 0xd021040]

def smallRec8 : List Nat := [0xff, 0x1fe, 0x3fc, 0x7f8, 0xff0, 0x1fe0, 0x3fc0, 0x7f80, 0xcc, 0x2a8, 0x3c0, 0xaa0, 0x2a80, 0x88, 0x1980, 0xf0, 0x198, 0x180, 0xaa, 0xcc0, 0x1e0, 0x80, 0xc0, 0xa0, 0x280, 0x780, 0x880]

def smallSpan8 : List Nat := [0xff, 0x55aa, 0x1980cc, 0x2314488, 0x3c0000f0, 0x1680050a0, 0x6301800c0, 0xd22104080, 0xcc, 0x110088, 0x1800c0, 0x280000a0, 0x420100080, 0x88, 0x120004080, 0xf0, 0x4488, 0x4080, 0xaa, 0x300000c0, 0x50a0, 0x80, 0xc0, 0xa0, 0x100080, 0x2104080, 0x20000080]

def smallRec9 : List Nat := [0x1142c, 0x450b, 0x8a16, 0x8a16, 0xf3e4, 0xf3e4, 0x515c, 0xbf7c, 0x6ad4, 0xd5a8, 0x740c, 0xe818, 0xc41c, 0x9c14, 0x2c04, 0x5808, 0x7278, 0xe4f0, 0xddcc, 0x4b44, 0x9688, 0x393c, 0x4890, 0x9120, 0x366c, 0x6cd8, 0x5ab4, 0x8304, 0xfdf8, 0xefdc, 0x2448]

def smallSpan9 : List Nat := [0x100400b4018c, 0x20000969c83, 0x8002062c68a, 0x80020359c8e, 0xa440035e58c, 0xa440056a804, 0x204001ce474, 0x84420d6e404, 0x24020017c2c, 0xa0400e39988, 0x24400cbe594, 0xa4020419928, 0xa0000ae985c, 0x80420be98d4, 0x4020a29c2c, 0x204203e01f8, 0x244007498e8, 0xa40008a7c58, 0xa0420d37da4, 0x200205c7d5c, 0x80400ca7828, 0x44204b985c, 0x200205d0070, 0x8040022c9a0, 0x4400a97dd4, 0x24021ba0d50, 0x204206805fc, 0x80000400104, 0xa4420ff0400, 0xa4020a9a5d4, 0x4000a27da0]

def smallRec10 : List Nat := [0x42942, 0x214a1, 0x3e73e, 0x370ec, 0x2c89a, 0x1b876, 0x3318a, 0x24a56, 0xbdee, 0x17bdc, 0x2f7b8, 0x1c632, 0x3bde8, 0x35292, 0x28c66, 0x2631c, 0xef7a, 0x1def4, 0x30d16, 0x2336e, 0x4f9e, 0x9f3c, 0xd0a2, 0x1eeda, 0x2ac52, 0x171e6, 0x3922a, 0x34586, 0x2a24e, 0x16dde, 0x2dbbc, 0x1e7c8, 0x19e3a, 0x1142c, 0x22858, 0x251aa]

def smallSpan10 : List Nat := [0x4000802de04f8e, 0x200002199d6a39, 0x29108030f4471a, 0x2810820003b758, 0x2110002c792c06, 0x900822c784d8a, 0x28008230204c06, 0x201000355885e2, 0x10082354e906e, 0x81082042162fc, 0x21108230bff0b8, 0x9100001c7b606, 0x2900821c37bef4, 0x28100200215b8a, 0x2100001cc56046, 0x2010800048038c, 0x110801d4fbe96, 0x910021d25691c, 0x2800002ce445d2, 0x20008218e0026e, 0x10003576926e, 0x100022c07f18c, 0x11002018bb406, 0x9108034d6906a, 0x2100801c7c086a, 0x810823110d296, 0x29000218e16a42, 0x28100029f52602, 0x2100802813d4fa, 0x810802c7e92fe, 0x21100224793778, 0x9108001e40800, 0x900022c5c478e, 0x8000201140a04, 0x20008004012d74, 0x20100218f169e2]

def smallRec11 : List Nat := [0x63de3, 0x759ae, 0x2c89a, 0x59134, 0x42942, 0x42942, 0x3e73e, 0x18f78c, 0xc7bc6, 0xc7bc6, 0x718c8, 0x24a56, 0x494ac, 0x5529e, 0x6defa, 0x1c632, 0x794aa, 0x35292, 0x6a524, 0x2631c, 0x4c638, 0x5f7b6, 0x72454, 0x2336e, 0x466dc, 0x4b67e, 0xd0a2, 0x5c798, 0x68510, 0x171e6, 0x3922a, 0x76cc4, 0x2a24e, 0x5449c, 0x6f2fe, 0x5ce8a, 0x19e3a, 0x1142c, 0x22858, 0x678e8]

def smallSpan11 : List Nat := [0x4800002031e13d8f, 0x48801000a3fd3646, 0x804100003b0e13a, 0x40840000a8edd32c, 0x400000200b142ed6, 0x4000002003b18052, 0x884102011bc91a6, 0x3000410202180074c, 0x180001020e89f988a, 0x140001020b389ee72, 0x488000002b5f6adc, 0x80010008a9ec8f2, 0x400400003a3c678c, 0x40801000a96822be, 0x48041000a3b90b2e, 0x84100088e90e46, 0x48840000a26ae06a, 0x8801000339cbd0e, 0x480400208269f868, 0x800102011f8afb8, 0x40041000995e3d04, 0x40841020bb3d343e, 0x4880002088e2a9f0, 0x8000020a9256dca, 0x400010209b3670f4, 0x40040020692408aa, 0x4100031f7d3ba, 0x40841000103da95c, 0x480400001b7b5508, 0x801020aacdd2ee, 0x884000021c31b46, 0x488010200052d58c, 0x80400201078ae2a, 0x4080100092fa006c, 0x48041020a3e15326, 0x40841000102f895e, 0x84000030243c36, 0x800000b911b0f4, 0x8000020994737e0, 0x48001020a01e2f7c]

def smallRec12 : List Nat := [0x11b6f8, 0x196d84, 0x8db7c, 0x138027, 0x1d003a, 0x1d003a, 0x16002c, 0x16002c, 0xdffe4, 0x7400e8, 0x3a0074, 0x3a0074, 0x140028, 0x120024, 0x1e003c, 0x6000c, 0xc0018, 0x180030, 0x3e26c, 0x7c4d8, 0xf89b0, 0x1f1360, 0x109ad0, 0x14bc64, 0x18d7b8, 0xbaf04, 0x1cf10c, 0x10b21c, 0x1b644c, 0xcc8ec, 0x1991d8, 0xbd650, 0x923c4, 0xe3d78, 0x1c7af0, 0x1e8f64, 0x15bdc4, 0x117bfc, 0x18f78c, 0xbef6c, 0x17ded8, 0xf2954, 0x1c31b4, 0x2631c, 0x6a524]

def smallSpan12 : List Nat := [0x400010200078e8fe410, 0x48001000209dd7e68bc, 0x800002020e53c5018c, 0x400410200081485c2c7, 0x48801000000d969b176, 0x48801000000d943cbea, 0x4084000000e1631af44, 0x4084000000e16240a2c, 0x880102020108532a2c, 0x34080000000657b487f8, 0x1880400000061e14666c, 0x14804000000898f28ec4, 0x4080000000045bba670, 0x4004000000841a8231c, 0x48840000006cb7125d4, 0x8400000080410459c, 0x880000000ecf6e63a0, 0x4800000000e8ae168f8, 0x410202015537451c, 0x841020206cb500978, 0x88410200009cca48b0, 0x4884100000804782ce8, 0x4000002000e82838ba0, 0x40800020009dd19e0bc, 0x4800002020841e4e7b0, 0x804102000757a14d64, 0x4880002020f44fea7f4, 0x4000002000f8a83a264, 0x480410002078eef4e8c, 0x8800020208dd5f459c, 0x48001020006cb1ccf48, 0x804102020804434700, 0x800100000194f84f44, 0x884000000155644ec8, 0x488000002078eab4130, 0x4884002000e91e7e56c, 0x40801020001d915a38c, 0x4000100020145f2eff4, 0x480000202094064e7b4, 0x804102020556a14d6c, 0x40841020200d90cc6c8, 0x884100000990e80044, 0x4880000000914cfa1cc, 0x40000201003d2c54, 0x84002000148868d94]

def smallRec13 : List Nat := [0x408081, 0x36b6b6, 0x6d6d6c, 0x5bdbda, 0x7f00fe, 0x7f00fe, 0x2affaa, 0x1830306, 0x810102, 0x810102, 0x2e005c, 0x5c00b8, 0x390072, 0x7200e4, 0x6500ca, 0x4b0096, 0x3a0074, 0x7400e8, 0x6900d2, 0x27004e, 0x4e009c, 0x1d003a, 0x4de2f0, 0x1ac4e2, 0x3589c4, 0x6b1388, 0x5e9a4c, 0x9bc5e, 0x71d76a, 0x62afd6, 0x26f178, 0x64b2f4, 0x4864ea, 0x11c8d6, 0x2391ac, 0x2cd61e, 0x472358, 0x7a3d90, 0x757a22, 0x1e8f64, 0x46bd62, 0xc7bc6, 0x18f78c, 0x31ef18, 0x63de30, 0x7b29bc, 0x523128, 0x256352, 0x6fa5f6]

def smallSpan13 : List Nat := [0x800000000020303e4089a1, 0x1100204000203159f082a6, 0x90082000400038e325ae08, 0x8108004040200930d528fe, 0x91082040400100a835e702, 0x9108204040010022234186, 0x100800400020385b80adae, 0x60000004040000188ef52ae, 0x3800000004000405485d21a, 0x20000000040010176f9f18e, 0x10082040000101ce89db14, 0x81082000000000eebc304c, 0x110800004000006493513a, 0x91000040000101aa5b62d8, 0x90002000400130a4dbda52, 0x800800404000316a6fa6f2, 0x110800400000008a23404c, 0x91002000000130969192a8, 0x90080000400001ae54a736, 0x100020404000008a28e102, 0x8008204000013096dbdb94, 0x10820004000008a3642a2, 0x800820004020390f372ca4, 0x108004000200954a29a12, 0x1100200040210046c39784, 0x900800404000305ac149b0, 0x81082040002100746111cc, 0x800004021302f5a12ae, 0x91000000402008b89340c2, 0x90000040002131491a421e, 0x100020400020390395eb14, 0x9000200000210075669984, 0x80080000000109133e4fb2, 0x100000040203908fcbfc2, 0x1000004040204046387590, 0x1008200000200966079dde, 0x80002040400031595e229c, 0x91080040000001df98e07c, 0x9100200040013995489b52, 0x10820400020312059ed98, 0x8000204000200103c7ad86, 0x820000000088ba98aa6, 0x108000000200931de85dc, 0x11000000402159bf76c970, 0x900000404021384a9a2be4, 0x9108004040000065de914c, 0x81000040000131a7b2ce80, 0x1000200040013949150f72, 0x9008204040213097961746]

def smallRec14 : List Nat := [0x408081, 0x36b6b6, 0x6d6d6c, 0x5bdbda, 0x7f00fe, 0x7f00fe, 0x2affaa, 0x2e005c, 0x5c00b8, 0x390072, 0x7200e4, 0x6500ca, 0x4b0096, 0x3a0074, 0x7400e8, 0x6900d2, 0x27004e, 0x4e009c, 0x1d003a, 0x4de2f0, 0x1ac4e2, 0x3589c4, 0x6b1388, 0x5e9a4c, 0x9bc5e, 0x71d76a, 0x62afd6, 0x26f178, 0x64b2f4, 0x4864ea, 0x11c8d6, 0x2391ac, 0x2cd61e, 0x472358, 0x7a3d90, 0x757a22, 0x1e8f64, 0x46bd62, 0xc7bc6, 0x18f78c, 0x31ef18, 0x63de30, 0x7b29bc, 0x523128, 0x256352, 0x6fa5f6, 0x78f0f1e, 0x387070e, 0x1830306, 0x810102, 0x810102, 0x285050a, 0x1830306, 0x810102, 0x810102]

def smallSpan14 : List Nat := [0x4000000000000b41b02d44b5, 0x208001008000841c90e61c2, 0x42001010000202853d4f32ac, 0x4008100008020ac4f608f7f6, 0x420810100802098408008c26, 0x42081010080209840a646a6a, 0x2001000080001c4773204aa, 0x200101008000800417b136c, 0x4008101000000b05d17a1938, 0x20810000002018420e8867a, 0x42080000080003059295a31c, 0x4200001000020301487bc466, 0x4000100008020b01097b90be, 0x208100008000001883a00c4, 0x42080010000000056a82621c, 0x4200100000020b04337dfaee, 0x20000100802028430588ce6, 0x4000101008000004e023cb60, 0x8101000020285ba50ef06, 0x40001010000201c02e730550, 0x81000080003449cd981ca, 0x208001000020041889343e0, 0x420010000802000133b46aac, 0x40081010080001c11be0a6b4, 0x100000020345a81777fa, 0x42080000000202c15cc558ce, 0x42000000080002c06aa10456, 0x200001008000040450061fc, 0x42000010000001c093da8ebc, 0x40001000000003041eda40fe, 0x8000000020ac477afff8a, 0x2000000080200c5aadb7708, 0x2001010000002c48dbe45aa, 0x4000001008020a809100773c, 0x4208100008000281e123ad28, 0x4208001000020b056f998cea, 0x8101008000ac171ff973c, 0x40000010080008414aa111e2, 0x1010000001819dfb6782, 0x81000000009c5f58a6008, 0x208000000020ac07d60bca0, 0x42000000080209c06f082aa0, 0x4208100008020981e3b615dc, 0x40080000080009815ad4da14, 0x20000100002018125383252, 0x4200101008020840abb81b26, 0x1a40000101008020285682f067e, 0xc6400000100802030009f1198e, 0x2d4200000008020981b3f3bb9e, 0x7c208000000020281c93050d6, 0x40000000000020b01b1dc5a26, 0x8400000010000203041a50e9b6, 0x240000000008020980d1915f72, 0x640000000000209848bb2b7fa, 0x5020000000002038161281082]

def smallRec15 : List Nat := [0x7318e63, 0x5def442, 0x63abaae, 0x216699a, 0x42cd334, 0x1cc6398c, 0xe631cc6, 0xe631cc6, 0x2ab0556, 0x5560aac, 0x4cf099e, 0x7fd0ffa, 0x1990332, 0x3320664, 0x147028e, 0x28e051c, 0x51c0a38, 0x6d50daa, 0x3c90792, 0x7920f24, 0x7bded10, 0x118c6e6, 0x2318dcc, 0x4631b98, 0x6529654, 0xf7bda2, 0x57bdd7e, 0x494a63a, 0x3def688, 0x76abce8, 0xb66516, 0x16cca2c, 0x2d99458, 0x7dcd9fe, 0x5b328b0, 0x3033b62, 0x60676c4, 0x469878a, 0x6cbb078, 0x3f47c36, 0x7e8f86c, 0x1b2ec1e, 0x365d83c, 0x48d2050, 0x2d73422, 0x5ae6844, 0x91a40a, 0x285050a, 0xfe01fc, 0x7f00fe0, 0x47708ee, 0x2040408, 0x1020204, 0x4080810, 0x4f609ec, 0x17d02fa, 0x78f0f1e, 0x1fc03f8, 0x3f807f0, 0x4890912]

def smallSpan15 : List Nat := [0x12200008080000000012639e294feb, 0x1021040008040100607876f2ad5cda, 0x1200000808040000602146e5193216, 0x200000008000100607419c5e74c02, 0x100000080004010000556f40a4e4f0, 0xd001040000000100207d78951f2af4, 0x6200040800000000606744b92570fe, 0x5200040800000000204a1f2789ab9a, 0x201000800040000201211ec25ed8a, 0x102004000800010020495b32cd35d4, 0x1001040000040100207e174654b75a, 0x1221040808040100005b38bb6dcd46, 0x210000080400000036712e4e4a92, 0x220000808000000202450a6549ed0, 0x20040000000100205a1e41470216, 0x2010000000401002058722304a1a8, 0x102000000804010000240ecb90d39c, 0x12010400080001000027463ee9dbb6, 0x22104000004000000026c6a2be0fe, 0x1221000008000000207d1a72f09250, 0x1221000808040100001e461c1b2f08, 0x2000000804000040152fe5ae7c26, 0x20000080800000040061d38ba47cc, 0x1000040800000000607a604b0cf55c, 0x1200040008000000200152a77484a0, 0x1040808000100600a493541b2be, 0x1020040808040000201207558473fe, 0x1001000008000100000d13e904672a, 0x221040008040100601902ced101e0, 0x122004080004000020605a76972360, 0x1000808000100604c4b48d003f6, 0x200408000401004004369e48226c, 0x20104000804000040175523b0a30c, 0x1221040008040100402c215bf39502, 0x1021000808000000606654284447c0, 0x220000000000000604e7d09c1ce2e, 0x12000000000001006064100ff00604, 0x1000040800040000402f62093efcbe, 0x1201040000040000602e4596f626c8, 0x221040808000100004446457b708e, 0x122104080004000040796eecb9ac50, 0x21000808000000604d43c5d9e6f2, 0x220040800000100407a1cb7d46e4c, 0x1001000000040100000264c05a90e4, 0x20104000800010020127ba2ab1daa, 0x102100080004010020542b493ab170, 0x1000008000000403e6750631672, 0x20100000000010000724b86f0104a, 0x104080804010060187826018d60, 0x12210408080000004005201e88eae4, 0x1000040808000100602f37db334956, 0x20000000000010040512539c3dc84, 0x2000000000000060215673ea3564, 0x1000000000040000002066a6568bf4, 0x10010408080001006004086140069c, 0x20040808040100401a3a2a2ece1e, 0x1221000000040100604f651b97e4e2, 0x2104080804010000392e5c7d74b0, 0x22104080804000040683b05beb004, 0x1001000000040000403f6c9581119a]

def smallRec16 : List Nat := [0x149f9fe4, 0xc75755c, 0x18eaeab8, 0x1bf7b7ef, 0x12a5254a, 0x12a5254a, 0x1cc6398c, 0x1cc6398c, 0xbbde884, 0x6fdedfbc, 0x254a4a94, 0x254a4a94, 0x100e201c, 0x5560aac, 0xaac1558, 0x15582ab0, 0xffa1ff4, 0x1ff43fe8, 0xf241e48, 0x1e483c90, 0x19da33b4, 0x8b6116c, 0x116c22d8, 0x7920f24, 0x1b7bd49c, 0x13bde3ac, 0x2318dcc, 0x4631b98, 0x6529654, 0xe94a164, 0x17def834, 0xaf7bafc, 0x1f18cf04, 0x76abce8, 0xed579d0, 0x1daaf3a0, 0x1e1fadd4, 0x9bfc538, 0x1975113c, 0xd6027a4, 0x1ac04f48, 0xa0a9b4c, 0x6cbb078, 0xd9760f0, 0x1b2ec1e0, 0x1317c954, 0x365d83c, 0x184b19dc, 0x10721168, 0x5ae6844, 0xef2b8cc, 0x10202040, 0x1c383870, 0x1b36366c, 0xa141428, 0x2040408, 0x1020204, 0x4080810, 0x18303060, 0xf1e1e3c, 0x152a2a54, 0x1d3a3a74, 0x1f3e3e7c, 0x162c2c58]

def smallSpan16 : List Nat := [0x1020000800000100200203958ff17eecec, 0x220000008040100000603c8120c7e4064, 0x1200000808040000200400516691ec8058, 0x120104080804010000020010004000b7ef, 0x10010008000400000002000c3aac59137e, 0x10010008000400000002000df312fed0d2, 0x122000080800000000020010000000398c, 0x12200008080000000002001df352fecc14, 0x201040800040100200603c9388e6cf0a4, 0xc22104080800010020020010000000dfbc, 0x702004000800000020000250c5101c16c4, 0x40200400080000002000001df352febf0c, 0x10000000000000002002001d32da80ec4c, 0x2004000800010000020010c1887e3364, 0x201000800040000200200053c8b089ee8, 0x102004000800010020000001c98b0a3fa8, 0x2210408080401002000001d32da80d3a4, 0x12210408080401000002000d32da80f3b8, 0x221040000040000000200000010d05d08, 0x1221000008000000200000000010d07fd0, 0x120004080800010020000014538a6e907c, 0x2000008000401000002001cfb4842af04, 0x10000400080400002002000df3422e9400, 0x21040800000100000000100010d04c64, 0x12010400080401002004005d9d897e4354, 0x100104080004010020020384466724f0fc, 0x1000000040100000403c865a0ac054c, 0x200000080400000004003d130378b558, 0x210000080001000000001c3ad8ae73bc, 0x221000800000100000603c9dbf30a50bc, 0x10210408080001002006005dbf6cb6fc8c, 0x2010008080401000002001dd18c1e30b4, 0x1221040000000100200003882655d29b8c, 0x210400080400002000001dd1f66cdf68, 0x221000808000100000203887c84b06380, 0x1220040800040000200403d4300d2647b8, 0x12210000000001002006035d5d03280d54, 0x200040800040100200203995615ecbf48, 0x1200040008040100000603c9dba3daa3a4, 0x22004000804000000000389b56192904c, 0x1201000808000000000403c81275149fd8, 0x2010000000000002000039c8269d0ab4c, 0x21000808000000200403d428f83cd318, 0x22004080000010000060051a7616ed028, 0x12010400000400002002039def467662d8, 0x1001040000000100000602f150c21eeffc, 0x1040008040000000603c9f90748fcbc, 0x1200000008000000200400504c7750cc9c, 0x1000000008040100000000100008423060, 0x200408000400002002001022831c6064, 0x221000808040100000003955bb140d1bc, 0x1000000000040000000400414419ac6ff0, 0x1220000000040100200003885e793cd040, 0x120104000004010000060050af27bebcf4, 0x20100000000010000020001082d8a8300, 0x1000000000000000603c938f308e9b8, 0x40000000000000403d8f15e8260ac, 0x20000000000000200401a1fc881a15a8, 0x1200000000040100000403c40a21f63078, 0x221040000000100200603d8f17250cfdc, 0x1020040000040000200403d830de8250cc, 0x122004000004010020040051668a343ff4, 0x1221040000040100200203989ff93cce7c, 0x1021000000040000200603c5e1298830d8]

def smallRec : Nat → List Nat
  | 1 => smallRec1
  | 2 => smallRec2
  | 3 => smallRec3
  | 4 => smallRec4
  | 5 => smallRec5
  | 6 => smallRec6
  | 7 => smallRec7
  | 8 => smallRec8
  | 9 => smallRec9
  | 10 => smallRec10
  | 11 => smallRec11
  | 12 => smallRec12
  | 13 => smallRec13
  | 14 => smallRec14
  | 15 => smallRec15
  | 16 => smallRec16
  | _ => []

def smallSpan : Nat → List Nat
  | 1 => smallSpan1
  | 2 => smallSpan2
  | 3 => smallSpan3
  | 4 => smallSpan4
  | 5 => smallSpan5
  | 6 => smallSpan6
  | 7 => smallSpan7
  | 8 => smallSpan8
  | 9 => smallSpan9
  | 10 => smallSpan10
  | 11 => smallSpan11
  | 12 => smallSpan12
  | 13 => smallSpan13
  | 14 => smallSpan14
  | 15 => smallSpan15
  | 16 => smallSpan16
  | _ => []

end M4rie
