import Verif.Vocab

/-! Tables of algorithm/detail/constants/groestl_constants.hpp, copied by tools/gen_tables.py. -/

namespace Digestpp.Model

/-- constants/groestl_constants.hpp 22-551: `groestl_constants::T[0]`. -/
def groestl_T0 : List (BitVec 64) :=
  [0xc6a597f4a5f432c6, 0xf884eb9784976ff8, 0xee99c7b099b05eee, 0xf68df78c8d8c7af6, 0xff0de5170d17e8ff,
   0xd6bdb7dcbddc0ad6, 0xdeb1a7c8b1c816de, 0x915439fc54fc6d91, 0x6050c0f050f09060, 0x0203040503050702,
   0xcea987e0a9e02ece, 0x567dac877d87d156, 0xe719d52b192bcce7, 0xb56271a662a613b5, 0x4de69a31e6317c4d,
   0xec9ac3b59ab559ec, 0x8f4505cf45cf408f, 0x1f9d3ebc9dbca31f, 0x894009c040c04989, 0xfa87ef92879268fa,
   0xef15c53f153fd0ef, 0xb2eb7f26eb2694b2, 0x8ec90740c940ce8e, 0xfb0bed1d0b1de6fb, 0x41ec822fec2f6e41,
   0xb3677da967a91ab3, 0x5ffdbe1cfd1c435f, 0x45ea8a25ea256045, 0x23bf46dabfdaf923, 0x53f7a602f7025153,
   0xe496d3a196a145e4, 0x9b5b2ded5bed769b, 0x75c2ea5dc25d2875, 0xe11cd9241c24c5e1, 0x3dae7ae9aee9d43d,
   0x4c6a98be6abef24c, 0x6c5ad8ee5aee826c, 0x7e41fcc341c3bd7e, 0xf502f1060206f3f5, 0x834f1dd14fd15283,
   0x685cd0e45ce48c68, 0x51f4a207f4075651, 0xd134b95c345c8dd1, 0xf908e9180818e1f9, 0xe293dfae93ae4ce2,
   0xab734d9573953eab, 0x6253c4f553f59762, 0x2a3f54413f416b2a, 0x080c10140c141c08, 0x955231f652f66395,
   0x46658caf65afe946, 0x9d5e21e25ee27f9d, 0x3028607828784830, 0x37a16ef8a1f8cf37, 0x0a0f14110f111b0a,
   0x2fb55ec4b5c4eb2f, 0x0e091c1b091b150e, 0x2436485a365a7e24, 0x1b9b36b69bb6ad1b, 0xdf3da5473d4798df,
   0xcd26816a266aa7cd, 0x4e699cbb69bbf54e, 0x7fcdfe4ccd4c337f, 0xea9fcfba9fba50ea, 0x121b242d1b2d3f12,
   0x1d9e3ab99eb9a41d, 0x5874b09c749cc458, 0x342e68722e724634, 0x362d6c772d774136, 0xdcb2a3cdb2cd11dc,
   0xb4ee7329ee299db4, 0x5bfbb616fb164d5b, 0xa4f65301f601a5a4, 0x764decd74dd7a176, 0xb76175a361a314b7,
   0x7dcefa49ce49347d, 0x527ba48d7b8ddf52, 0xdd3ea1423e429fdd, 0x5e71bc937193cd5e, 0x139726a297a2b113,
   0xa6f55704f504a2a6, 0xb96869b868b801b9, 0x0000000000000000, 0xc12c99742c74b5c1, 0x406080a060a0e040,
   0xe31fdd211f21c2e3, 0x79c8f243c8433a79, 0xb6ed772ced2c9ab6, 0xd4beb3d9bed90dd4, 0x8d4601ca46ca478d,
   0x67d9ce70d9701767, 0x724be4dd4bddaf72, 0x94de3379de79ed94, 0x98d42b67d467ff98, 0xb0e87b23e82393b0,
   0x854a11de4ade5b85, 0xbb6b6dbd6bbd06bb, 0xc52a917e2a7ebbc5, 0x4fe59e34e5347b4f, 0xed16c13a163ad7ed,
   0x86c51754c554d286, 0x9ad72f62d762f89a, 0x6655ccff55ff9966, 0x119422a794a7b611, 0x8acf0f4acf4ac08a,
   0xe910c9301030d9e9, 0x0406080a060a0e04, 0xfe81e798819866fe, 0xa0f05b0bf00baba0, 0x7844f0cc44ccb478,
   0x25ba4ad5bad5f025, 0x4be3963ee33e754b, 0xa2f35f0ef30eaca2, 0x5dfeba19fe19445d, 0x80c01b5bc05bdb80,
   0x058a0a858a858005, 0x3fad7eecadecd33f, 0x21bc42dfbcdffe21, 0x7048e0d848d8a870, 0xf104f90c040cfdf1,
   0x63dfc67adf7a1963, 0x77c1ee58c1582f77, 0xaf75459f759f30af, 0x426384a563a5e742, 0x2030405030507020,
   0xe51ad12e1a2ecbe5, 0xfd0ee1120e12effd, 0xbf6d65b76db708bf, 0x814c19d44cd45581, 0x1814303c143c2418,
   0x26354c5f355f7926, 0xc32f9d712f71b2c3, 0xbee16738e13886be, 0x35a26afda2fdc835, 0x88cc0b4fcc4fc788,
   0x2e395c4b394b652e, 0x93573df957f96a93, 0x55f2aa0df20d5855, 0xfc82e39d829d61fc, 0x7a47f4c947c9b37a,
   0xc8ac8befacef27c8, 0xbae76f32e73288ba, 0x322b647d2b7d4f32, 0xe695d7a495a442e6, 0xc0a09bfba0fb3bc0,
   0x199832b398b3aa19, 0x9ed12768d168f69e, 0xa37f5d817f8122a3, 0x446688aa66aaee44, 0x547ea8827e82d654,
   0x3bab76e6abe6dd3b, 0x0b83169e839e950b, 0x8cca0345ca45c98c, 0xc729957b297bbcc7, 0x6bd3d66ed36e056b,
   0x283c50443c446c28, 0xa779558b798b2ca7, 0xbce2633de23d81bc, 0x161d2c271d273116, 0xad76419a769a37ad,
   0xdb3bad4d3b4d96db, 0x6456c8fa56fa9e64, 0x744ee8d24ed2a674, 0x141e28221e223614, 0x92db3f76db76e492,
   0x0c0a181e0a1e120c, 0x486c90b46cb4fc48, 0xb8e46b37e4378fb8, 0x9f5d25e75de7789f, 0xbd6e61b26eb20fbd,
   0x43ef862aef2a6943, 0xc4a693f1a6f135c4, 0x39a872e3a8e3da39, 0x31a462f7a4f7c631, 0xd337bd5937598ad3,
   0xf28bff868b8674f2, 0xd532b156325683d5, 0x8b430dc543c54e8b, 0x6e59dceb59eb856e, 0xdab7afc2b7c218da,
   0x018c028f8c8f8e01, 0xb16479ac64ac1db1, 0x9cd2236dd26df19c, 0x49e0923be03b7249, 0xd8b4abc7b4c71fd8,
   0xacfa4315fa15b9ac, 0xf307fd090709faf3, 0xcf25856f256fa0cf, 0xcaaf8feaafea20ca, 0xf48ef3898e897df4,
   0x47e98e20e9206747, 0x1018202818283810, 0x6fd5de64d5640b6f, 0xf088fb83888373f0, 0x4a6f94b16fb1fb4a,
   0x5c72b8967296ca5c, 0x3824706c246c5438, 0x57f1ae08f1085f57, 0x73c7e652c7522173, 0x975135f351f36497,
   0xcb238d652365aecb, 0xa17c59847c8425a1, 0xe89ccbbf9cbf57e8, 0x3e217c6321635d3e, 0x96dd377cdd7cea96,
   0x61dcc27fdc7f1e61, 0x0d861a9186919c0d, 0x0f851e9485949b0f, 0xe090dbab90ab4be0, 0x7c42f8c642c6ba7c,
   0x71c4e257c4572671, 0xccaa83e5aae529cc, 0x90d83b73d873e390, 0x06050c0f050f0906, 0xf701f5030103f4f7,
   0x1c12383612362a1c, 0xc2a39ffea3fe3cc2, 0x6a5fd4e15fe18b6a, 0xaef94710f910beae, 0x69d0d26bd06b0269,
   0x17912ea891a8bf17, 0x995829e858e87199, 0x3a2774692769533a, 0x27b94ed0b9d0f727, 0xd938a948384891d9,
   0xeb13cd351335deeb, 0x2bb356ceb3cee52b, 0x2233445533557722, 0xd2bbbfd6bbd604d2, 0xa9704990709039a9,
   0x07890e8089808707, 0x33a766f2a7f2c133, 0x2db65ac1b6c1ec2d, 0x3c22786622665a3c, 0x15922aad92adb815,
   0xc92089602060a9c9, 0x874915db49db5c87, 0xaaff4f1aff1ab0aa, 0x5078a0887888d850, 0xa57a518e7a8e2ba5,
   0x038f068a8f8a8903, 0x59f8b213f8134a59, 0x0980129b809b9209, 0x1a1734391739231a, 0x65daca75da751065,
   0xd731b553315384d7, 0x84c61351c651d584, 0xd0b8bbd3b8d303d0, 0x82c31f5ec35edc82, 0x29b052cbb0cbe229,
   0x5a77b4997799c35a, 0x1e113c3311332d1e, 0x7bcbf646cb463d7b, 0xa8fc4b1ffc1fb7a8, 0x6dd6da61d6610c6d,
   0x2c3a584e3a4e622c].map (BitVec.ofNat 64)

/-- constants/groestl_constants.hpp 22-551: `groestl_constants::T[1]`. -/
def groestl_T1 : List (BitVec 64) :=
  [0xa597f4a5f432c6c6, 0x84eb9784976ff8f8, 0x99c7b099b05eeeee, 0x8df78c8d8c7af6f6, 0x0de5170d17e8ffff,
   0xbdb7dcbddc0ad6d6, 0xb1a7c8b1c816dede, 0x5439fc54fc6d9191, 0x50c0f050f0906060, 0x0304050305070202,
   0xa987e0a9e02ecece, 0x7dac877d87d15656, 0x19d52b192bcce7e7, 0x6271a662a613b5b5, 0xe69a31e6317c4d4d,
   0x9ac3b59ab559ecec, 0x4505cf45cf408f8f, 0x9d3ebc9dbca31f1f, 0x4009c040c0498989, 0x87ef92879268fafa,
   0x15c53f153fd0efef, 0xeb7f26eb2694b2b2, 0xc90740c940ce8e8e, 0x0bed1d0b1de6fbfb, 0xec822fec2f6e4141,
   0x677da967a91ab3b3, 0xfdbe1cfd1c435f5f, 0xea8a25ea25604545, 0xbf46dabfdaf92323, 0xf7a602f702515353,
   0x96d3a196a145e4e4, 0x5b2ded5bed769b9b, 0xc2ea5dc25d287575, 0x1cd9241c24c5e1e1, 0xae7ae9aee9d43d3d,
   0x6a98be6abef24c4c, 0x5ad8ee5aee826c6c, 0x41fcc341c3bd7e7e, 0x02f1060206f3f5f5, 0x4f1dd14fd1528383,
   0x5cd0e45ce48c6868, 0xf4a207f407565151, 0x34b95c345c8dd1d1, 0x08e9180818e1f9f9, 0x93dfae93ae4ce2e2,
   0x734d9573953eabab, 0x53c4f553f5976262, 0x3f54413f416b2a2a, 0x0c10140c141c0808, 0x5231f652f6639595,
   0x658caf65afe94646, 0x5e21e25ee27f9d9d, 0x2860782878483030, 0xa16ef8a1f8cf3737, 0x0f14110f111b0a0a,
   0xb55ec4b5c4eb2f2f, 0x091c1b091b150e0e, 0x36485a365a7e2424, 0x9b36b69bb6ad1b1b, 0x3da5473d4798dfdf,
   0x26816a266aa7cdcd, 0x699cbb69bbf54e4e, 0xcdfe4ccd4c337f7f, 0x9fcfba9fba50eaea, 0x1b242d1b2d3f1212,
   0x9e3ab99eb9a41d1d, 0x74b09c749cc45858, 0x2e68722e72463434, 0x2d6c772d77413636, 0xb2a3cdb2cd11dcdc,
   0xee7329ee299db4b4, 0xfbb616fb164d5b5b, 0xf65301f601a5a4a4, 0x4decd74dd7a17676, 0x6175a361a314b7b7,
   0xcefa49ce49347d7d, 0x7ba48d7b8ddf5252, 0x3ea1423e429fdddd, 0x71bc937193cd5e5e, 0x9726a297a2b11313,
   0xf55704f504a2a6a6, 0x6869b868b801b9b9, 0x0000000000000000, 0x2c99742c74b5c1c1, 0x6080a060a0e04040,
   0x1fdd211f21c2e3e3, 0xc8f243c8433a7979, 0xed772ced2c9ab6b6, 0xbeb3d9bed90dd4d4, 0x4601ca46ca478d8d,
   0xd9ce70d970176767, 0x4be4dd4bddaf7272, 0xde3379de79ed9494, 0xd42b67d467ff9898, 0xe87b23e82393b0b0,
   0x4a11de4ade5b8585, 0x6b6dbd6bbd06bbbb, 0x2a917e2a7ebbc5c5, 0xe59e34e5347b4f4f, 0x16c13a163ad7eded,
   0xc51754c554d28686, 0xd72f62d762f89a9a, 0x55ccff55ff996666, 0x9422a794a7b61111, 0xcf0f4acf4ac08a8a,
   0x10c9301030d9e9e9, 0x06080a060a0e0404, 0x81e798819866fefe, 0xf05b0bf00baba0a0, 0x44f0cc44ccb47878,
   0xba4ad5bad5f02525, 0xe3963ee33e754b4b, 0xf35f0ef30eaca2a2, 0xfeba19fe19445d5d, 0xc01b5bc05bdb8080,
   0x8a0a858a85800505, 0xad7eecadecd33f3f, 0xbc42dfbcdffe2121, 0x48e0d848d8a87070, 0x04f90c040cfdf1f1,
   0xdfc67adf7a196363, 0xc1ee58c1582f7777, 0x75459f759f30afaf, 0x6384a563a5e74242, 0x3040503050702020,
   0x1ad12e1a2ecbe5e5, 0x0ee1120e12effdfd, 0x6d65b76db708bfbf, 0x4c19d44cd4558181, 0x14303c143c241818,
   0x354c5f355f792626, 0x2f9d712f71b2c3c3, 0xe16738e13886bebe, 0xa26afda2fdc83535, 0xcc0b4fcc4fc78888,
   0x395c4b394b652e2e, 0x573df957f96a9393, 0xf2aa0df20d585555, 0x82e39d829d61fcfc, 0x47f4c947c9b37a7a,
   0xac8befacef27c8c8, 0xe76f32e73288baba, 0x2b647d2b7d4f3232, 0x95d7a495a442e6e6, 0xa09bfba0fb3bc0c0,
   0x9832b398b3aa1919, 0xd12768d168f69e9e, 0x7f5d817f8122a3a3, 0x6688aa66aaee4444, 0x7ea8827e82d65454,
   0xab76e6abe6dd3b3b, 0x83169e839e950b0b, 0xca0345ca45c98c8c, 0x29957b297bbcc7c7, 0xd3d66ed36e056b6b,
   0x3c50443c446c2828, 0x79558b798b2ca7a7, 0xe2633de23d81bcbc, 0x1d2c271d27311616, 0x76419a769a37adad,
   0x3bad4d3b4d96dbdb, 0x56c8fa56fa9e6464, 0x4ee8d24ed2a67474, 0x1e28221e22361414, 0xdb3f76db76e49292,
   0x0a181e0a1e120c0c, 0x6c90b46cb4fc4848, 0xe46b37e4378fb8b8, 0x5d25e75de7789f9f, 0x6e61b26eb20fbdbd,
   0xef862aef2a694343, 0xa693f1a6f135c4c4, 0xa872e3a8e3da3939, 0xa462f7a4f7c63131, 0x37bd5937598ad3d3,
   0x8bff868b8674f2f2, 0x32b156325683d5d5, 0x430dc543c54e8b8b, 0x59dceb59eb856e6e, 0xb7afc2b7c218dada,
   0x8c028f8c8f8e0101, 0x6479ac64ac1db1b1, 0xd2236dd26df19c9c, 0xe0923be03b724949, 0xb4abc7b4c71fd8d8,
   0xfa4315fa15b9acac, 0x07fd090709faf3f3, 0x25856f256fa0cfcf, 0xaf8feaafea20caca, 0x8ef3898e897df4f4,
   0xe98e20e920674747, 0x1820281828381010, 0xd5de64d5640b6f6f, 0x88fb83888373f0f0, 0x6f94b16fb1fb4a4a,
   0x72b8967296ca5c5c, 0x24706c246c543838, 0xf1ae08f1085f5757, 0xc7e652c752217373, 0x5135f351f3649797,
   0x238d652365aecbcb, 0x7c59847c8425a1a1, 0x9ccbbf9cbf57e8e8, 0x217c6321635d3e3e, 0xdd377cdd7cea9696,
   0xdcc27fdc7f1e6161, 0x861a9186919c0d0d, 0x851e9485949b0f0f, 0x90dbab90ab4be0e0, 0x42f8c642c6ba7c7c,
   0xc4e257c457267171, 0xaa83e5aae529cccc, 0xd83b73d873e39090, 0x050c0f050f090606, 0x01f5030103f4f7f7,
   0x12383612362a1c1c, 0xa39ffea3fe3cc2c2, 0x5fd4e15fe18b6a6a, 0xf94710f910beaeae, 0xd0d26bd06b026969,
   0x912ea891a8bf1717, 0x5829e858e8719999, 0x2774692769533a3a, 0xb94ed0b9d0f72727, 0x38a948384891d9d9,
   0x13cd351335deebeb, 0xb356ceb3cee52b2b, 0x3344553355772222, 0xbbbfd6bbd604d2d2, 0x704990709039a9a9,
   0x890e808980870707, 0xa766f2a7f2c13333, 0xb65ac1b6c1ec2d2d, 0x22786622665a3c3c, 0x922aad92adb81515,
   0x2089602060a9c9c9, 0x4915db49db5c8787, 0xff4f1aff1ab0aaaa, 0x78a0887888d85050, 0x7a518e7a8e2ba5a5,
   0x8f068a8f8a890303, 0xf8b213f8134a5959, 0x80129b809b920909, 0x1734391739231a1a, 0xdaca75da75106565,
   0x31b553315384d7d7, 0xc61351c651d58484, 0xb8bbd3b8d303d0d0, 0xc31f5ec35edc8282, 0xb052cbb0cbe22929,
   0x77b4997799c35a5a, 0x113c3311332d1e1e, 0xcbf646cb463d7b7b, 0xfc4b1ffc1fb7a8a8, 0xd6da61d6610c6d6d,
   0x3a584e3a4e622c2c].map (BitVec.ofNat 64)

/-- constants/groestl_constants.hpp 22-551: `groestl_constants::T[2]`. -/
def groestl_T2 : List (BitVec 64) :=
  [0x97f4a5f432c6c6a5, 0xeb9784976ff8f884, 0xc7b099b05eeeee99, 0xf78c8d8c7af6f68d, 0xe5170d17e8ffff0d,
   0xb7dcbddc0ad6d6bd, 0xa7c8b1c816dedeb1, 0x39fc54fc6d919154, 0xc0f050f090606050, 0x0405030507020203,
   0x87e0a9e02ececea9, 0xac877d87d156567d, 0xd52b192bcce7e719, 0x71a662a613b5b562, 0x9a31e6317c4d4de6,
   0xc3b59ab559ecec9a, 0x05cf45cf408f8f45, 0x3ebc9dbca31f1f9d, 0x09c040c049898940, 0xef92879268fafa87,
   0xc53f153fd0efef15, 0x7f26eb2694b2b2eb, 0x0740c940ce8e8ec9, 0xed1d0b1de6fbfb0b, 0x822fec2f6e4141ec,
   0x7da967a91ab3b367, 0xbe1cfd1c435f5ffd, 0x8a25ea25604545ea, 0x46dabfdaf92323bf, 0xa602f702515353f7,
   0xd3a196a145e4e496, 0x2ded5bed769b9b5b, 0xea5dc25d287575c2, 0xd9241c24c5e1e11c, 0x7ae9aee9d43d3dae,
   0x98be6abef24c4c6a, 0xd8ee5aee826c6c5a, 0xfcc341c3bd7e7e41, 0xf1060206f3f5f502, 0x1dd14fd15283834f,
   0xd0e45ce48c68685c, 0xa207f407565151f4, 0xb95c345c8dd1d134, 0xe9180818e1f9f908, 0xdfae93ae4ce2e293,
   0x4d9573953eabab73, 0xc4f553f597626253, 0x54413f416b2a2a3f, 0x10140c141c08080c, 0x31f652f663959552,
   0x8caf65afe9464665, 0x21e25ee27f9d9d5e, 0x6078287848303028, 0x6ef8a1f8cf3737a1, 0x14110f111b0a0a0f,
   0x5ec4b5c4eb2f2fb5, 0x1c1b091b150e0e09, 0x485a365a7e242436, 0x36b69bb6ad1b1b9b, 0xa5473d4798dfdf3d,
   0x816a266aa7cdcd26, 0x9cbb69bbf54e4e69, 0xfe4ccd4c337f7fcd, 0xcfba9fba50eaea9f, 0x242d1b2d3f12121b,
   0x3ab99eb9a41d1d9e, 0xb09c749cc4585874, 0x68722e724634342e, 0x6c772d774136362d, 0xa3cdb2cd11dcdcb2,
   0x7329ee299db4b4ee, 0xb616fb164d5b5bfb, 0x5301f601a5a4a4f6, 0xecd74dd7a176764d, 0x75a361a314b7b761,
   0xfa49ce49347d7dce, 0xa48d7b8ddf52527b, 0xa1423e429fdddd3e, 0xbc937193cd5e5e71, 0x26a297a2b1131397,
   0x5704f504a2a6a6f5, 0x69b868b801b9b968, 0x0000000000000000, 0x99742c74b5c1c12c, 0x80a060a0e0404060,
   0xdd211f21c2e3e31f, 0xf243c8433a7979c8, 0x772ced2c9ab6b6ed, 0xb3d9bed90dd4d4be, 0x01ca46ca478d8d46,
   0xce70d970176767d9, 0xe4dd4bddaf72724b, 0x3379de79ed9494de, 0x2b67d467ff9898d4, 0x7b23e82393b0b0e8,
   0x11de4ade5b85854a, 0x6dbd6bbd06bbbb6b, 0x917e2a7ebbc5c52a, 0x9e34e5347b4f4fe5, 0xc13a163ad7eded16,
   0x1754c554d28686c5, 0x2f62d762f89a9ad7, 0xccff55ff99666655, 0x22a794a7b6111194, 0x0f4acf4ac08a8acf,
   0xc9301030d9e9e910, 0x080a060a0e040406, 0xe798819866fefe81, 0x5b0bf00baba0a0f0, 0xf0cc44ccb4787844,
   0x4ad5bad5f02525ba, 0x963ee33e754b4be3, 0x5f0ef30eaca2a2f3, 0xba19fe19445d5dfe, 0x1b5bc05bdb8080c0,
   0x0a858a858005058a, 0x7eecadecd33f3fad, 0x42dfbcdffe2121bc, 0xe0d848d8a8707048, 0xf90c040cfdf1f104,
   0xc67adf7a196363df, 0xee58c1582f7777c1, 0x459f759f30afaf75, 0x84a563a5e7424263, 0x4050305070202030,
   0xd12e1a2ecbe5e51a, 0xe1120e12effdfd0e, 0x65b76db708bfbf6d, 0x19d44cd45581814c, 0x303c143c24181814,
   0x4c5f355f79262635, 0x9d712f71b2c3c32f, 0x6738e13886bebee1, 0x6afda2fdc83535a2, 0x0b4fcc4fc78888cc,
   0x5c4b394b652e2e39, 0x3df957f96a939357, 0xaa0df20d585555f2, 0xe39d829d61fcfc82, 0xf4c947c9b37a7a47,
   0x8befacef27c8c8ac, 0x6f32e73288babae7, 0x647d2b7d4f32322b, 0xd7a495a442e6e695, 0x9bfba0fb3bc0c0a0,
   0x32b398b3aa191998, 0x2768d168f69e9ed1, 0x5d817f8122a3a37f, 0x88aa66aaee444466, 0xa8827e82d654547e,
   0x76e6abe6dd3b3bab, 0x169e839e950b0b83, 0x0345ca45c98c8cca, 0x957b297bbcc7c729, 0xd66ed36e056b6bd3,
   0x50443c446c28283c, 0x558b798b2ca7a779, 0x633de23d81bcbce2, 0x2c271d273116161d, 0x419a769a37adad76,
   0xad4d3b4d96dbdb3b, 0xc8fa56fa9e646456, 0xe8d24ed2a674744e, 0x28221e223614141e, 0x3f76db76e49292db,
   0x181e0a1e120c0c0a, 0x90b46cb4fc48486c, 0x6b37e4378fb8b8e4, 0x25e75de7789f9f5d, 0x61b26eb20fbdbd6e,
   0x862aef2a694343ef, 0x93f1a6f135c4c4a6, 0x72e3a8e3da3939a8, 0x62f7a4f7c63131a4, 0xbd5937598ad3d337,
   0xff868b8674f2f28b, 0xb156325683d5d532, 0x0dc543c54e8b8b43, 0xdceb59eb856e6e59, 0xafc2b7c218dadab7,
   0x028f8c8f8e01018c, 0x79ac64ac1db1b164, 0x236dd26df19c9cd2, 0x923be03b724949e0, 0xabc7b4c71fd8d8b4,
   0x4315fa15b9acacfa, 0xfd090709faf3f307, 0x856f256fa0cfcf25, 0x8feaafea20cacaaf, 0xf3898e897df4f48e,
   0x8e20e920674747e9, 0x2028182838101018, 0xde64d5640b6f6fd5, 0xfb83888373f0f088, 0x94b16fb1fb4a4a6f,
   0xb8967296ca5c5c72, 0x706c246c54383824, 0xae08f1085f5757f1, 0xe652c752217373c7, 0x35f351f364979751,
   0x8d652365aecbcb23, 0x59847c8425a1a17c, 0xcbbf9cbf57e8e89c, 0x7c6321635d3e3e21, 0x377cdd7cea9696dd,
   0xc27fdc7f1e6161dc, 0x1a9186919c0d0d86, 0x1e9485949b0f0f85, 0xdbab90ab4be0e090, 0xf8c642c6ba7c7c42,
   0xe257c457267171c4, 0x83e5aae529ccccaa, 0x3b73d873e39090d8, 0x0c0f050f09060605, 0xf5030103f4f7f701,
   0x383612362a1c1c12, 0x9ffea3fe3cc2c2a3, 0xd4e15fe18b6a6a5f, 0x4710f910beaeaef9, 0xd26bd06b026969d0,
   0x2ea891a8bf171791, 0x29e858e871999958, 0x74692769533a3a27, 0x4ed0b9d0f72727b9, 0xa948384891d9d938,
   0xcd351335deebeb13, 0x56ceb3cee52b2bb3, 0x4455335577222233, 0xbfd6bbd604d2d2bb, 0x4990709039a9a970,
   0x0e80898087070789, 0x66f2a7f2c13333a7, 0x5ac1b6c1ec2d2db6, 0x786622665a3c3c22, 0x2aad92adb8151592,
   0x89602060a9c9c920, 0x15db49db5c878749, 0x4f1aff1ab0aaaaff, 0xa0887888d8505078, 0x518e7a8e2ba5a57a,
   0x068a8f8a8903038f, 0xb213f8134a5959f8, 0x129b809b92090980, 0x34391739231a1a17, 0xca75da75106565da,
   0xb553315384d7d731, 0x1351c651d58484c6, 0xbbd3b8d303d0d0b8, 0x1f5ec35edc8282c3, 0x52cbb0cbe22929b0,
   0xb4997799c35a5a77, 0x3c3311332d1e1e11, 0xf646cb463d7b7bcb, 0x4b1ffc1fb7a8a8fc, 0xda61d6610c6d6dd6,
   0x584e3a4e622c2c3a].map (BitVec.ofNat 64)

/-- constants/groestl_constants.hpp 22-551: `groestl_constants::T[3]`. -/
def groestl_T3 : List (BitVec 64) :=
  [0xf4a5f432c6c6a597, 0x9784976ff8f884eb, 0xb099b05eeeee99c7, 0x8c8d8c7af6f68df7, 0x170d17e8ffff0de5,
   0xdcbddc0ad6d6bdb7, 0xc8b1c816dedeb1a7, 0xfc54fc6d91915439, 0xf050f090606050c0, 0x0503050702020304,
   0xe0a9e02ececea987, 0x877d87d156567dac, 0x2b192bcce7e719d5, 0xa662a613b5b56271, 0x31e6317c4d4de69a,
   0xb59ab559ecec9ac3, 0xcf45cf408f8f4505, 0xbc9dbca31f1f9d3e, 0xc040c04989894009, 0x92879268fafa87ef,
   0x3f153fd0efef15c5, 0x26eb2694b2b2eb7f, 0x40c940ce8e8ec907, 0x1d0b1de6fbfb0bed, 0x2fec2f6e4141ec82,
   0xa967a91ab3b3677d, 0x1cfd1c435f5ffdbe, 0x25ea25604545ea8a, 0xdabfdaf92323bf46, 0x02f702515353f7a6,
   0xa196a145e4e496d3, 0xed5bed769b9b5b2d, 0x5dc25d287575c2ea, 0x241c24c5e1e11cd9, 0xe9aee9d43d3dae7a,
   0xbe6abef24c4c6a98, 0xee5aee826c6c5ad8, 0xc341c3bd7e7e41fc, 0x060206f3f5f502f1, 0xd14fd15283834f1d,
   0xe45ce48c68685cd0, 0x07f407565151f4a2, 0x5c345c8dd1d134b9, 0x180818e1f9f908e9, 0xae93ae4ce2e293df,
   0x9573953eabab734d, 0xf553f597626253c4, 0x413f416b2a2a3f54, 0x140c141c08080c10, 0xf652f66395955231,
   0xaf65afe94646658c, 0xe25ee27f9d9d5e21, 0x7828784830302860, 0xf8a1f8cf3737a16e, 0x110f111b0a0a0f14,
   0xc4b5c4eb2f2fb55e, 0x1b091b150e0e091c, 0x5a365a7e24243648, 0xb69bb6ad1b1b9b36, 0x473d4798dfdf3da5,
   0x6a266aa7cdcd2681, 0xbb69bbf54e4e699c, 0x4ccd4c337f7fcdfe, 0xba9fba50eaea9fcf, 0x2d1b2d3f12121b24,
   0xb99eb9a41d1d9e3a, 0x9c749cc4585874b0, 0x722e724634342e68, 0x772d774136362d6c, 0xcdb2cd11dcdcb2a3,
   0x29ee299db4b4ee73, 0x16fb164d5b5bfbb6, 0x01f601a5a4a4f653, 0xd74dd7a176764dec, 0xa361a314b7b76175,
   0x49ce49347d7dcefa, 0x8d7b8ddf52527ba4, 0x423e429fdddd3ea1, 0x937193cd5e5e71bc, 0xa297a2b113139726,
   0x04f504a2a6a6f557, 0xb868b801b9b96869, 0x0000000000000000, 0x742c74b5c1c12c99, 0xa060a0e040406080,
   0x211f21c2e3e31fdd, 0x43c8433a7979c8f2, 0x2ced2c9ab6b6ed77, 0xd9bed90dd4d4beb3, 0xca46ca478d8d4601,
   0x70d970176767d9ce, 0xdd4bddaf72724be4, 0x79de79ed9494de33, 0x67d467ff9898d42b, 0x23e82393b0b0e87b,
   0xde4ade5b85854a11, 0xbd6bbd06bbbb6b6d, 0x7e2a7ebbc5c52a91, 0x34e5347b4f4fe59e, 0x3a163ad7eded16c1,
   0x54c554d28686c517, 0x62d762f89a9ad72f, 0xff55ff99666655cc, 0xa794a7b611119422, 0x4acf4ac08a8acf0f,
   0x301030d9e9e910c9, 0x0a060a0e04040608, 0x98819866fefe81e7, 0x0bf00baba0a0f05b, 0xcc44ccb4787844f0,
   0xd5bad5f02525ba4a, 0x3ee33e754b4be396, 0x0ef30eaca2a2f35f, 0x19fe19445d5dfeba, 0x5bc05bdb8080c01b,
   0x858a858005058a0a, 0xecadecd33f3fad7e, 0xdfbcdffe2121bc42, 0xd848d8a8707048e0, 0x0c040cfdf1f104f9,
   0x7adf7a196363dfc6, 0x58c1582f7777c1ee, 0x9f759f30afaf7545, 0xa563a5e742426384, 0x5030507020203040,
   0x2e1a2ecbe5e51ad1, 0x120e12effdfd0ee1, 0xb76db708bfbf6d65, 0xd44cd45581814c19, 0x3c143c2418181430,
   0x5f355f792626354c, 0x712f71b2c3c32f9d, 0x38e13886bebee167, 0xfda2fdc83535a26a, 0x4fcc4fc78888cc0b,
   0x4b394b652e2e395c, 0xf957f96a9393573d, 0x0df20d585555f2aa, 0x9d829d61fcfc82e3, 0xc947c9b37a7a47f4,
   0xefacef27c8c8ac8b, 0x32e73288babae76f, 0x7d2b7d4f32322b64, 0xa495a442e6e695d7, 0xfba0fb3bc0c0a09b,
   0xb398b3aa19199832, 0x68d168f69e9ed127, 0x817f8122a3a37f5d, 0xaa66aaee44446688, 0x827e82d654547ea8,
   0xe6abe6dd3b3bab76, 0x9e839e950b0b8316, 0x45ca45c98c8cca03, 0x7b297bbcc7c72995, 0x6ed36e056b6bd3d6,
   0x443c446c28283c50, 0x8b798b2ca7a77955, 0x3de23d81bcbce263, 0x271d273116161d2c, 0x9a769a37adad7641,
   0x4d3b4d96dbdb3bad, 0xfa56fa9e646456c8, 0xd24ed2a674744ee8, 0x221e223614141e28, 0x76db76e49292db3f,
   0x1e0a1e120c0c0a18, 0xb46cb4fc48486c90, 0x37e4378fb8b8e46b, 0xe75de7789f9f5d25, 0xb26eb20fbdbd6e61,
   0x2aef2a694343ef86, 0xf1a6f135c4c4a693, 0xe3a8e3da3939a872, 0xf7a4f7c63131a462, 0x5937598ad3d337bd,
   0x868b8674f2f28bff, 0x56325683d5d532b1, 0xc543c54e8b8b430d, 0xeb59eb856e6e59dc, 0xc2b7c218dadab7af,
   0x8f8c8f8e01018c02, 0xac64ac1db1b16479, 0x6dd26df19c9cd223, 0x3be03b724949e092, 0xc7b4c71fd8d8b4ab,
   0x15fa15b9acacfa43, 0x090709faf3f307fd, 0x6f256fa0cfcf2585, 0xeaafea20cacaaf8f, 0x898e897df4f48ef3,
   0x20e920674747e98e, 0x2818283810101820, 0x64d5640b6f6fd5de, 0x83888373f0f088fb, 0xb16fb1fb4a4a6f94,
   0x967296ca5c5c72b8, 0x6c246c5438382470, 0x08f1085f5757f1ae, 0x52c752217373c7e6, 0xf351f36497975135,
   0x652365aecbcb238d, 0x847c8425a1a17c59, 0xbf9cbf57e8e89ccb, 0x6321635d3e3e217c, 0x7cdd7cea9696dd37,
   0x7fdc7f1e6161dcc2, 0x9186919c0d0d861a, 0x9485949b0f0f851e, 0xab90ab4be0e090db, 0xc642c6ba7c7c42f8,
   0x57c457267171c4e2, 0xe5aae529ccccaa83, 0x73d873e39090d83b, 0x0f050f090606050c, 0x030103f4f7f701f5,
   0x3612362a1c1c1238, 0xfea3fe3cc2c2a39f, 0xe15fe18b6a6a5fd4, 0x10f910beaeaef947, 0x6bd06b026969d0d2,
   0xa891a8bf1717912e, 0xe858e87199995829, 0x692769533a3a2774, 0xd0b9d0f72727b94e, 0x48384891d9d938a9,
   0x351335deebeb13cd, 0xceb3cee52b2bb356, 0x5533557722223344, 0xd6bbd604d2d2bbbf, 0x90709039a9a97049,
   0x808980870707890e, 0xf2a7f2c13333a766, 0xc1b6c1ec2d2db65a, 0x6622665a3c3c2278, 0xad92adb81515922a,
   0x602060a9c9c92089, 0xdb49db5c87874915, 0x1aff1ab0aaaaff4f, 0x887888d8505078a0, 0x8e7a8e2ba5a57a51,
   0x8a8f8a8903038f06, 0x13f8134a5959f8b2, 0x9b809b9209098012, 0x391739231a1a1734, 0x75da75106565daca,
   0x53315384d7d731b5, 0x51c651d58484c613, 0xd3b8d303d0d0b8bb, 0x5ec35edc8282c31f, 0xcbb0cbe22929b052,
   0x997799c35a5a77b4, 0x3311332d1e1e113c, 0x46cb463d7b7bcbf6, 0x1ffc1fb7a8a8fc4b, 0x61d6610c6d6dd6da,
   0x4e3a4e622c2c3a58].map (BitVec.ofNat 64)

/-- constants/groestl_constants.hpp 22-551: `groestl_constants::T[4]`. -/
def groestl_T4 : List (BitVec 64) :=
  [0xa5f432c6c6a597f4, 0x84976ff8f884eb97, 0x99b05eeeee99c7b0, 0x8d8c7af6f68df78c, 0x0d17e8ffff0de517,
   0xbddc0ad6d6bdb7dc, 0xb1c816dedeb1a7c8, 0x54fc6d91915439fc, 0x50f090606050c0f0, 0x0305070202030405,
   0xa9e02ececea987e0, 0x7d87d156567dac87, 0x192bcce7e719d52b, 0x62a613b5b56271a6, 0xe6317c4d4de69a31,
   0x9ab559ecec9ac3b5, 0x45cf408f8f4505cf, 0x9dbca31f1f9d3ebc, 0x40c04989894009c0, 0x879268fafa87ef92,
   0x153fd0efef15c53f, 0xeb2694b2b2eb7f26, 0xc940ce8e8ec90740, 0x0b1de6fbfb0bed1d, 0xec2f6e4141ec822f,
   0x67a91ab3b3677da9, 0xfd1c435f5ffdbe1c, 0xea25604545ea8a25, 0xbfdaf92323bf46da, 0xf702515353f7a602,
   0x96a145e4e496d3a1, 0x5bed769b9b5b2ded, 0xc25d287575c2ea5d, 0x1c24c5e1e11cd924, 0xaee9d43d3dae7ae9,
   0x6abef24c4c6a98be, 0x5aee826c6c5ad8ee, 0x41c3bd7e7e41fcc3, 0x0206f3f5f502f106, 0x4fd15283834f1dd1,
   0x5ce48c68685cd0e4, 0xf407565151f4a207, 0x345c8dd1d134b95c, 0x0818e1f9f908e918, 0x93ae4ce2e293dfae,
   0x73953eabab734d95, 0x53f597626253c4f5, 0x3f416b2a2a3f5441, 0x0c141c08080c1014, 0x52f66395955231f6,
   0x65afe94646658caf, 0x5ee27f9d9d5e21e2, 0x2878483030286078, 0xa1f8cf3737a16ef8, 0x0f111b0a0a0f1411,
   0xb5c4eb2f2fb55ec4, 0x091b150e0e091c1b, 0x365a7e242436485a, 0x9bb6ad1b1b9b36b6, 0x3d4798dfdf3da547,
   0x266aa7cdcd26816a, 0x69bbf54e4e699cbb, 0xcd4c337f7fcdfe4c, 0x9fba50eaea9fcfba, 0x1b2d3f12121b242d,
   0x9eb9a41d1d9e3ab9, 0x749cc4585874b09c, 0x2e724634342e6872, 0x2d774136362d6c77, 0xb2cd11dcdcb2a3cd,
   0xee299db4b4ee7329, 0xfb164d5b5bfbb616, 0xf601a5a4a4f65301, 0x4dd7a176764decd7, 0x61a314b7b76175a3,
   0xce49347d7dcefa49, 0x7b8ddf52527ba48d, 0x3e429fdddd3ea142, 0x7193cd5e5e71bc93, 0x97a2b113139726a2,
   0xf504a2a6a6f55704, 0x68b801b9b96869b8, 0x0000000000000000, 0x2c74b5c1c12c9974, 0x60a0e040406080a0,
   0x1f21c2e3e31fdd21, 0xc8433a7979c8f243, 0xed2c9ab6b6ed772c, 0xbed90dd4d4beb3d9, 0x46ca478d8d4601ca,
   0xd970176767d9ce70, 0x4bddaf72724be4dd, 0xde79ed9494de3379, 0xd467ff9898d42b67, 0xe82393b0b0e87b23,
   0x4ade5b85854a11de, 0x6bbd06bbbb6b6dbd, 0x2a7ebbc5c52a917e, 0xe5347b4f4fe59e34, 0x163ad7eded16c13a,
   0xc554d28686c51754, 0xd762f89a9ad72f62, 0x55ff99666655ccff, 0x94a7b611119422a7, 0xcf4ac08a8acf0f4a,
   0x1030d9e9e910c930, 0x060a0e040406080a, 0x819866fefe81e798, 0xf00baba0a0f05b0b, 0x44ccb4787844f0cc,
   0xbad5f02525ba4ad5, 0xe33e754b4be3963e, 0xf30eaca2a2f35f0e, 0xfe19445d5dfeba19, 0xc05bdb8080c01b5b,
   0x8a858005058a0a85, 0xadecd33f3fad7eec, 0xbcdffe2121bc42df, 0x48d8a8707048e0d8, 0x040cfdf1f104f90c,
   0xdf7a196363dfc67a, 0xc1582f7777c1ee58, 0x759f30afaf75459f, 0x63a5e742426384a5, 0x3050702020304050,
   0x1a2ecbe5e51ad12e, 0x0e12effdfd0ee112, 0x6db708bfbf6d65b7, 0x4cd45581814c19d4, 0x143c24181814303c,
   0x355f792626354c5f, 0x2f71b2c3c32f9d71, 0xe13886bebee16738, 0xa2fdc83535a26afd, 0xcc4fc78888cc0b4f,
   0x394b652e2e395c4b, 0x57f96a9393573df9, 0xf20d585555f2aa0d, 0x829d61fcfc82e39d, 0x47c9b37a7a47f4c9,
   0xacef27c8c8ac8bef, 0xe73288babae76f32, 0x2b7d4f32322b647d, 0x95a442e6e695d7a4, 0xa0fb3bc0c0a09bfb,
   0x98b3aa19199832b3, 0xd168f69e9ed12768, 0x7f8122a3a37f5d81, 0x66aaee44446688aa, 0x7e82d654547ea882,
   0xabe6dd3b3bab76e6, 0x839e950b0b83169e, 0xca45c98c8cca0345, 0x297bbcc7c729957b, 0xd36e056b6bd3d66e,
   0x3c446c28283c5044, 0x798b2ca7a779558b, 0xe23d81bcbce2633d, 0x1d273116161d2c27, 0x769a37adad76419a,
   0x3b4d96dbdb3bad4d, 0x56fa9e646456c8fa, 0x4ed2a674744ee8d2, 0x1e223614141e2822, 0xdb76e49292db3f76,
   0x0a1e120c0c0a181e, 0x6cb4fc48486c90b4, 0xe4378fb8b8e46b37, 0x5de7789f9f5d25e7, 0x6eb20fbdbd6e61b2,
   0xef2a694343ef862a, 0xa6f135c4c4a693f1, 0xa8e3da3939a872e3, 0xa4f7c63131a462f7, 0x37598ad3d337bd59,
   0x8b8674f2f28bff86, 0x325683d5d532b156, 0x43c54e8b8b430dc5, 0x59eb856e6e59dceb, 0xb7c218dadab7afc2,
   0x8c8f8e01018c028f, 0x64ac1db1b16479ac, 0xd26df19c9cd2236d, 0xe03b724949e0923b, 0xb4c71fd8d8b4abc7,
   0xfa15b9acacfa4315, 0x0709faf3f307fd09, 0x256fa0cfcf25856f, 0xafea20cacaaf8fea, 0x8e897df4f48ef389,
   0xe920674747e98e20, 0x1828381010182028, 0xd5640b6f6fd5de64, 0x888373f0f088fb83, 0x6fb1fb4a4a6f94b1,
   0x7296ca5c5c72b896, 0x246c54383824706c, 0xf1085f5757f1ae08, 0xc752217373c7e652, 0x51f36497975135f3,
   0x2365aecbcb238d65, 0x7c8425a1a17c5984, 0x9cbf57e8e89ccbbf, 0x21635d3e3e217c63, 0xdd7cea9696dd377c,
   0xdc7f1e6161dcc27f, 0x86919c0d0d861a91, 0x85949b0f0f851e94, 0x90ab4be0e090dbab, 0x42c6ba7c7c42f8c6,
   0xc457267171c4e257, 0xaae529ccccaa83e5, 0xd873e39090d83b73, 0x050f090606050c0f, 0x0103f4f7f701f503,
   0x12362a1c1c123836, 0xa3fe3cc2c2a39ffe, 0x5fe18b6a6a5fd4e1, 0xf910beaeaef94710, 0xd06b026969d0d26b,
   0x91a8bf1717912ea8, 0x58e87199995829e8, 0x2769533a3a277469, 0xb9d0f72727b94ed0, 0x384891d9d938a948,
   0x1335deebeb13cd35, 0xb3cee52b2bb356ce, 0x3355772222334455, 0xbbd604d2d2bbbfd6, 0x709039a9a9704990,
   0x8980870707890e80, 0xa7f2c13333a766f2, 0xb6c1ec2d2db65ac1, 0x22665a3c3c227866, 0x92adb81515922aad,
   0x2060a9c9c9208960, 0x49db5c87874915db, 0xff1ab0aaaaff4f1a, 0x7888d8505078a088, 0x7a8e2ba5a57a518e,
   0x8f8a8903038f068a, 0xf8134a5959f8b213, 0x809b92090980129b, 0x1739231a1a173439, 0xda75106565daca75,
   0x315384d7d731b553, 0xc651d58484c61351, 0xb8d303d0d0b8bbd3, 0xc35edc8282c31f5e, 0xb0cbe22929b052cb,
   0x7799c35a5a77b499, 0x11332d1e1e113c33, 0xcb463d7b7bcbf646, 0xfc1fb7a8a8fc4b1f, 0xd6610c6d6dd6da61,
   0x3a4e622c2c3a584e].map (BitVec.ofNat 64)

/-- constants/groestl_constants.hpp 22-551: `groestl_constants::T[5]`. -/
def groestl_T5 : List (BitVec 64) :=
  [0xf432c6c6a597f4a5, 0x976ff8f884eb9784, 0xb05eeeee99c7b099, 0x8c7af6f68df78c8d, 0x17e8ffff0de5170d,
   0xdc0ad6d6bdb7dcbd, 0xc816dedeb1a7c8b1, 0xfc6d91915439fc54, 0xf090606050c0f050, 0x0507020203040503,
   0xe02ececea987e0a9, 0x87d156567dac877d, 0x2bcce7e719d52b19, 0xa613b5b56271a662, 0x317c4d4de69a31e6,
   0xb559ecec9ac3b59a, 0xcf408f8f4505cf45, 0xbca31f1f9d3ebc9d, 0xc04989894009c040, 0x9268fafa87ef9287,
   0x3fd0efef15c53f15, 0x2694b2b2eb7f26eb, 0x40ce8e8ec90740c9, 0x1de6fbfb0bed1d0b, 0x2f6e4141ec822fec,
   0xa91ab3b3677da967, 0x1c435f5ffdbe1cfd, 0x25604545ea8a25ea, 0xdaf92323bf46dabf, 0x02515353f7a602f7,
   0xa145e4e496d3a196, 0xed769b9b5b2ded5b, 0x5d287575c2ea5dc2, 0x24c5e1e11cd9241c, 0xe9d43d3dae7ae9ae,
   0xbef24c4c6a98be6a, 0xee826c6c5ad8ee5a, 0xc3bd7e7e41fcc341, 0x06f3f5f502f10602, 0xd15283834f1dd14f,
   0xe48c68685cd0e45c, 0x07565151f4a207f4, 0x5c8dd1d134b95c34, 0x18e1f9f908e91808, 0xae4ce2e293dfae93,
   0x953eabab734d9573, 0xf597626253c4f553, 0x416b2a2a3f54413f, 0x141c08080c10140c, 0xf66395955231f652,
   0xafe94646658caf65, 0xe27f9d9d5e21e25e, 0x7848303028607828, 0xf8cf3737a16ef8a1, 0x111b0a0a0f14110f,
   0xc4eb2f2fb55ec4b5, 0x1b150e0e091c1b09, 0x5a7e242436485a36, 0xb6ad1b1b9b36b69b, 0x4798dfdf3da5473d,
   0x6aa7cdcd26816a26, 0xbbf54e4e699cbb69, 0x4c337f7fcdfe4ccd, 0xba50eaea9fcfba9f, 0x2d3f12121b242d1b,
   0xb9a41d1d9e3ab99e, 0x9cc4585874b09c74, 0x724634342e68722e, 0x774136362d6c772d, 0xcd11dcdcb2a3cdb2,
   0x299db4b4ee7329ee, 0x164d5b5bfbb616fb, 0x01a5a4a4f65301f6, 0xd7a176764decd74d, 0xa314b7b76175a361,
   0x49347d7dcefa49ce, 0x8ddf52527ba48d7b, 0x429fdddd3ea1423e, 0x93cd5e5e71bc9371, 0xa2b113139726a297,
   0x04a2a6a6f55704f5, 0xb801b9b96869b868, 0x0000000000000000, 0x74b5c1c12c99742c, 0xa0e040406080a060,
   0x21c2e3e31fdd211f, 0x433a7979c8f243c8, 0x2c9ab6b6ed772ced, 0xd90dd4d4beb3d9be, 0xca478d8d4601ca46,
   0x70176767d9ce70d9, 0xddaf72724be4dd4b, 0x79ed9494de3379de, 0x67ff9898d42b67d4, 0x2393b0b0e87b23e8,
   0xde5b85854a11de4a, 0xbd06bbbb6b6dbd6b, 0x7ebbc5c52a917e2a, 0x347b4f4fe59e34e5, 0x3ad7eded16c13a16,
   0x54d28686c51754c5, 0x62f89a9ad72f62d7, 0xff99666655ccff55, 0xa7b611119422a794, 0x4ac08a8acf0f4acf,
   0x30d9e9e910c93010, 0x0a0e040406080a06, 0x9866fefe81e79881, 0x0baba0a0f05b0bf0, 0xccb4787844f0cc44,
   0xd5f02525ba4ad5ba, 0x3e754b4be3963ee3, 0x0eaca2a2f35f0ef3, 0x19445d5dfeba19fe, 0x5bdb8080c01b5bc0,
   0x858005058a0a858a, 0xecd33f3fad7eecad, 0xdffe2121bc42dfbc, 0xd8a8707048e0d848, 0x0cfdf1f104f90c04,
   0x7a196363dfc67adf, 0x582f7777c1ee58c1, 0x9f30afaf75459f75, 0xa5e742426384a563, 0x5070202030405030,
   0x2ecbe5e51ad12e1a, 0x12effdfd0ee1120e, 0xb708bfbf6d65b76d, 0xd45581814c19d44c, 0x3c24181814303c14,
   0x5f792626354c5f35, 0x71b2c3c32f9d712f, 0x3886bebee16738e1, 0xfdc83535a26afda2, 0x4fc78888cc0b4fcc,
   0x4b652e2e395c4b39, 0xf96a9393573df957, 0x0d585555f2aa0df2, 0x9d61fcfc82e39d82, 0xc9b37a7a47f4c947,
   0xef27c8c8ac8befac, 0x3288babae76f32e7, 0x7d4f32322b647d2b, 0xa442e6e695d7a495, 0xfb3bc0c0a09bfba0,
   0xb3aa19199832b398, 0x68f69e9ed12768d1, 0x8122a3a37f5d817f, 0xaaee44446688aa66, 0x82d654547ea8827e,
   0xe6dd3b3bab76e6ab, 0x9e950b0b83169e83, 0x45c98c8cca0345ca, 0x7bbcc7c729957b29, 0x6e056b6bd3d66ed3,
   0x446c28283c50443c, 0x8b2ca7a779558b79, 0x3d81bcbce2633de2, 0x273116161d2c271d, 0x9a37adad76419a76,
   0x4d96dbdb3bad4d3b, 0xfa9e646456c8fa56, 0xd2a674744ee8d24e, 0x223614141e28221e, 0x76e49292db3f76db,
   0x1e120c0c0a181e0a, 0xb4fc48486c90b46c, 0x378fb8b8e46b37e4, 0xe7789f9f5d25e75d, 0xb20fbdbd6e61b26e,
   0x2a694343ef862aef, 0xf135c4c4a693f1a6, 0xe3da3939a872e3a8, 0xf7c63131a462f7a4, 0x598ad3d337bd5937,
   0x8674f2f28bff868b, 0x5683d5d532b15632, 0xc54e8b8b430dc543, 0xeb856e6e59dceb59, 0xc218dadab7afc2b7,
   0x8f8e01018c028f8c, 0xac1db1b16479ac64, 0x6df19c9cd2236dd2, 0x3b724949e0923be0, 0xc71fd8d8b4abc7b4,
   0x15b9acacfa4315fa, 0x09faf3f307fd0907, 0x6fa0cfcf25856f25, 0xea20cacaaf8feaaf, 0x897df4f48ef3898e,
   0x20674747e98e20e9, 0x2838101018202818, 0x640b6f6fd5de64d5, 0x8373f0f088fb8388, 0xb1fb4a4a6f94b16f,
   0x96ca5c5c72b89672, 0x6c54383824706c24, 0x085f5757f1ae08f1, 0x52217373c7e652c7, 0xf36497975135f351,
   0x65aecbcb238d6523, 0x8425a1a17c59847c, 0xbf57e8e89ccbbf9c, 0x635d3e3e217c6321, 0x7cea9696dd377cdd,
   0x7f1e6161dcc27fdc, 0x919c0d0d861a9186, 0x949b0f0f851e9485, 0xab4be0e090dbab90, 0xc6ba7c7c42f8c642,
   0x57267171c4e257c4, 0xe529ccccaa83e5aa, 0x73e39090d83b73d8, 0x0f090606050c0f05, 0x03f4f7f701f50301,
   0x362a1c1c12383612, 0xfe3cc2c2a39ffea3, 0xe18b6a6a5fd4e15f, 0x10beaeaef94710f9, 0x6b026969d0d26bd0,
   0xa8bf1717912ea891, 0xe87199995829e858, 0x69533a3a27746927, 0xd0f72727b94ed0b9, 0x4891d9d938a94838,
   0x35deebeb13cd3513, 0xcee52b2bb356ceb3, 0x5577222233445533, 0xd604d2d2bbbfd6bb, 0x9039a9a970499070,
   0x80870707890e8089, 0xf2c13333a766f2a7, 0xc1ec2d2db65ac1b6, 0x665a3c3c22786622, 0xadb81515922aad92,
   0x60a9c9c920896020, 0xdb5c87874915db49, 0x1ab0aaaaff4f1aff, 0x88d8505078a08878, 0x8e2ba5a57a518e7a,
   0x8a8903038f068a8f, 0x134a5959f8b213f8, 0x9b92090980129b80, 0x39231a1a17343917, 0x75106565daca75da,
   0x5384d7d731b55331, 0x51d58484c61351c6, 0xd303d0d0b8bbd3b8, 0x5edc8282c31f5ec3, 0xcbe22929b052cbb0,
   0x99c35a5a77b49977, 0x332d1e1e113c3311, 0x463d7b7bcbf646cb, 0x1fb7a8a8fc4b1ffc, 0x610c6d6dd6da61d6,
   0x4e622c2c3a584e3a].map (BitVec.ofNat 64)

/-- constants/groestl_constants.hpp 22-551: `groestl_constants::T[6]`. -/
def groestl_T6 : List (BitVec 64) :=
  [0x32c6c6a597f4a5f4, 0x6ff8f884eb978497, 0x5eeeee99c7b099b0, 0x7af6f68df78c8d8c, 0xe8ffff0de5170d17,
   0x0ad6d6bdb7dcbddc, 0x16dedeb1a7c8b1c8, 0x6d91915439fc54fc, 0x90606050c0f050f0, 0x0702020304050305,
   0x2ececea987e0a9e0, 0xd156567dac877d87, 0xcce7e719d52b192b, 0x13b5b56271a662a6, 0x7c4d4de69a31e631,
   0x59ecec9ac3b59ab5, 0x408f8f4505cf45cf, 0xa31f1f9d3ebc9dbc, 0x4989894009c040c0, 0x68fafa87ef928792,
   0xd0efef15c53f153f, 0x94b2b2eb7f26eb26, 0xce8e8ec90740c940, 0xe6fbfb0bed1d0b1d, 0x6e4141ec822fec2f,
   0x1ab3b3677da967a9, 0x435f5ffdbe1cfd1c, 0x604545ea8a25ea25, 0xf92323bf46dabfda, 0x515353f7a602f702,
   0x45e4e496d3a196a1, 0x769b9b5b2ded5bed, 0x287575c2ea5dc25d, 0xc5e1e11cd9241c24, 0xd43d3dae7ae9aee9,
   0xf24c4c6a98be6abe, 0x826c6c5ad8ee5aee, 0xbd7e7e41fcc341c3, 0xf3f5f502f1060206, 0x5283834f1dd14fd1,
   0x8c68685cd0e45ce4, 0x565151f4a207f407, 0x8dd1d134b95c345c, 0xe1f9f908e9180818, 0x4ce2e293dfae93ae,
   0x3eabab734d957395, 0x97626253c4f553f5, 0x6b2a2a3f54413f41, 0x1c08080c10140c14, 0x6395955231f652f6,
   0xe94646658caf65af, 0x7f9d9d5e21e25ee2, 0x4830302860782878, 0xcf3737a16ef8a1f8, 0x1b0a0a0f14110f11,
   0xeb2f2fb55ec4b5c4, 0x150e0e091c1b091b, 0x7e242436485a365a, 0xad1b1b9b36b69bb6, 0x98dfdf3da5473d47,
   0xa7cdcd26816a266a, 0xf54e4e699cbb69bb, 0x337f7fcdfe4ccd4c, 0x50eaea9fcfba9fba, 0x3f12121b242d1b2d,
   0xa41d1d9e3ab99eb9, 0xc4585874b09c749c, 0x4634342e68722e72, 0x4136362d6c772d77, 0x11dcdcb2a3cdb2cd,
   0x9db4b4ee7329ee29, 0x4d5b5bfbb616fb16, 0xa5a4a4f65301f601, 0xa176764decd74dd7, 0x14b7b76175a361a3,
   0x347d7dcefa49ce49, 0xdf52527ba48d7b8d, 0x9fdddd3ea1423e42, 0xcd5e5e71bc937193, 0xb113139726a297a2,
   0xa2a6a6f55704f504, 0x01b9b96869b868b8, 0x0000000000000000, 0xb5c1c12c99742c74, 0xe040406080a060a0,
   0xc2e3e31fdd211f21, 0x3a7979c8f243c843, 0x9ab6b6ed772ced2c, 0x0dd4d4beb3d9bed9, 0x478d8d4601ca46ca,
   0x176767d9ce70d970, 0xaf72724be4dd4bdd, 0xed9494de3379de79, 0xff9898d42b67d467, 0x93b0b0e87b23e823,
   0x5b85854a11de4ade, 0x06bbbb6b6dbd6bbd, 0xbbc5c52a917e2a7e, 0x7b4f4fe59e34e534, 0xd7eded16c13a163a,
   0xd28686c51754c554, 0xf89a9ad72f62d762, 0x99666655ccff55ff, 0xb611119422a794a7, 0xc08a8acf0f4acf4a,
   0xd9e9e910c9301030, 0x0e040406080a060a, 0x66fefe81e7988198, 0xaba0a0f05b0bf00b, 0xb4787844f0cc44cc,
   0xf02525ba4ad5bad5, 0x754b4be3963ee33e, 0xaca2a2f35f0ef30e, 0x445d5dfeba19fe19, 0xdb8080c01b5bc05b,
   0x8005058a0a858a85, 0xd33f3fad7eecadec, 0xfe2121bc42dfbcdf, 0xa8707048e0d848d8, 0xfdf1f104f90c040c,
   0x196363dfc67adf7a, 0x2f7777c1ee58c158, 0x30afaf75459f759f, 0xe742426384a563a5, 0x7020203040503050,
   0xcbe5e51ad12e1a2e, 0xeffdfd0ee1120e12, 0x08bfbf6d65b76db7, 0x5581814c19d44cd4, 0x24181814303c143c,
   0x792626354c5f355f, 0xb2c3c32f9d712f71, 0x86bebee16738e138, 0xc83535a26afda2fd, 0xc78888cc0b4fcc4f,
   0x652e2e395c4b394b, 0x6a9393573df957f9, 0x585555f2aa0df20d, 0x61fcfc82e39d829d, 0xb37a7a47f4c947c9,
   0x27c8c8ac8befacef, 0x88babae76f32e732, 0x4f32322b647d2b7d, 0x42e6e695d7a495a4, 0x3bc0c0a09bfba0fb,
   0xaa19199832b398b3, 0xf69e9ed12768d168, 0x22a3a37f5d817f81, 0xee44446688aa66aa, 0xd654547ea8827e82,
   0xdd3b3bab76e6abe6, 0x950b0b83169e839e, 0xc98c8cca0345ca45, 0xbcc7c729957b297b, 0x056b6bd3d66ed36e,
   0x6c28283c50443c44, 0x2ca7a779558b798b, 0x81bcbce2633de23d, 0x3116161d2c271d27, 0x37adad76419a769a,
   0x96dbdb3bad4d3b4d, 0x9e646456c8fa56fa, 0xa674744ee8d24ed2, 0x3614141e28221e22, 0xe49292db3f76db76,
   0x120c0c0a181e0a1e, 0xfc48486c90b46cb4, 0x8fb8b8e46b37e437, 0x789f9f5d25e75de7, 0x0fbdbd6e61b26eb2,
   0x694343ef862aef2a, 0x35c4c4a693f1a6f1, 0xda3939a872e3a8e3, 0xc63131a462f7a4f7, 0x8ad3d337bd593759,
   0x74f2f28bff868b86, 0x83d5d532b1563256, 0x4e8b8b430dc543c5, 0x856e6e59dceb59eb, 0x18dadab7afc2b7c2,
   0x8e01018c028f8c8f, 0x1db1b16479ac64ac, 0xf19c9cd2236dd26d, 0x724949e0923be03b, 0x1fd8d8b4abc7b4c7,
   0xb9acacfa4315fa15, 0xfaf3f307fd090709, 0xa0cfcf25856f256f, 0x20cacaaf8feaafea, 0x7df4f48ef3898e89,
   0x674747e98e20e920, 0x3810101820281828, 0x0b6f6fd5de64d564, 0x73f0f088fb838883, 0xfb4a4a6f94b16fb1,
   0xca5c5c72b8967296, 0x54383824706c246c, 0x5f5757f1ae08f108, 0x217373c7e652c752, 0x6497975135f351f3,
   0xaecbcb238d652365, 0x25a1a17c59847c84, 0x57e8e89ccbbf9cbf, 0x5d3e3e217c632163, 0xea9696dd377cdd7c,
   0x1e6161dcc27fdc7f, 0x9c0d0d861a918691, 0x9b0f0f851e948594, 0x4be0e090dbab90ab, 0xba7c7c42f8c642c6,
   0x267171c4e257c457, 0x29ccccaa83e5aae5, 0xe39090d83b73d873, 0x090606050c0f050f, 0xf4f7f701f5030103,
   0x2a1c1c1238361236, 0x3cc2c2a39ffea3fe, 0x8b6a6a5fd4e15fe1, 0xbeaeaef94710f910, 0x026969d0d26bd06b,
   0xbf1717912ea891a8, 0x7199995829e858e8, 0x533a3a2774692769, 0xf72727b94ed0b9d0, 0x91d9d938a9483848,
   0xdeebeb13cd351335, 0xe52b2bb356ceb3ce, 0x7722223344553355, 0x04d2d2bbbfd6bbd6, 0x39a9a97049907090,
   0x870707890e808980, 0xc13333a766f2a7f2, 0xec2d2db65ac1b6c1, 0x5a3c3c2278662266, 0xb81515922aad92ad,
   0xa9c9c92089602060, 0x5c87874915db49db, 0xb0aaaaff4f1aff1a, 0xd8505078a0887888, 0x2ba5a57a518e7a8e,
   0x8903038f068a8f8a, 0x4a5959f8b213f813, 0x92090980129b809b, 0x231a1a1734391739, 0x106565daca75da75,
   0x84d7d731b5533153, 0xd58484c61351c651, 0x03d0d0b8bbd3b8d3, 0xdc8282c31f5ec35e, 0xe22929b052cbb0cb,
   0xc35a5a77b4997799, 0x2d1e1e113c331133, 0x3d7b7bcbf646cb46, 0xb7a8a8fc4b1ffc1f, 0x0c6d6dd6da61d661,
   0x622c2c3a584e3a4e].map (BitVec.ofNat 64)

/-- constants/groestl_constants.hpp 22-551: `groestl_constants::T[7]`. -/
def groestl_T7 : List (BitVec 64) :=
  [0xc6c6a597f4a5f432, 0xf8f884eb9784976f, 0xeeee99c7b099b05e, 0xf6f68df78c8d8c7a, 0xffff0de5170d17e8,
   0xd6d6bdb7dcbddc0a, 0xdedeb1a7c8b1c816, 0x91915439fc54fc6d, 0x606050c0f050f090, 0x0202030405030507,
   0xcecea987e0a9e02e, 0x56567dac877d87d1, 0xe7e719d52b192bcc, 0xb5b56271a662a613, 0x4d4de69a31e6317c,
   0xecec9ac3b59ab559, 0x8f8f4505cf45cf40, 0x1f1f9d3ebc9dbca3, 0x89894009c040c049, 0xfafa87ef92879268,
   0xefef15c53f153fd0, 0xb2b2eb7f26eb2694, 0x8e8ec90740c940ce, 0xfbfb0bed1d0b1de6, 0x4141ec822fec2f6e,
   0xb3b3677da967a91a, 0x5f5ffdbe1cfd1c43, 0x4545ea8a25ea2560, 0x2323bf46dabfdaf9, 0x5353f7a602f70251,
   0xe4e496d3a196a145, 0x9b9b5b2ded5bed76, 0x7575c2ea5dc25d28, 0xe1e11cd9241c24c5, 0x3d3dae7ae9aee9d4,
   0x4c4c6a98be6abef2, 0x6c6c5ad8ee5aee82, 0x7e7e41fcc341c3bd, 0xf5f502f1060206f3, 0x83834f1dd14fd152,
   0x68685cd0e45ce48c, 0x5151f4a207f40756, 0xd1d134b95c345c8d, 0xf9f908e9180818e1, 0xe2e293dfae93ae4c,
   0xabab734d9573953e, 0x626253c4f553f597, 0x2a2a3f54413f416b, 0x08080c10140c141c, 0x95955231f652f663,
   0x4646658caf65afe9, 0x9d9d5e21e25ee27f, 0x3030286078287848, 0x3737a16ef8a1f8cf, 0x0a0a0f14110f111b,
   0x2f2fb55ec4b5c4eb, 0x0e0e091c1b091b15, 0x242436485a365a7e, 0x1b1b9b36b69bb6ad, 0xdfdf3da5473d4798,
   0xcdcd26816a266aa7, 0x4e4e699cbb69bbf5, 0x7f7fcdfe4ccd4c33, 0xeaea9fcfba9fba50, 0x12121b242d1b2d3f,
   0x1d1d9e3ab99eb9a4, 0x585874b09c749cc4, 0x34342e68722e7246, 0x36362d6c772d7741, 0xdcdcb2a3cdb2cd11,
   0xb4b4ee7329ee299d, 0x5b5bfbb616fb164d, 0xa4a4f65301f601a5, 0x76764decd74dd7a1, 0xb7b76175a361a314,
   0x7d7dcefa49ce4934, 0x52527ba48d7b8ddf, 0xdddd3ea1423e429f, 0x5e5e71bc937193cd, 0x13139726a297a2b1,
   0xa6a6f55704f504a2, 0xb9b96869b868b801, 0x0000000000000000, 0xc1c12c99742c74b5, 0x40406080a060a0e0,
   0xe3e31fdd211f21c2, 0x7979c8f243c8433a, 0xb6b6ed772ced2c9a, 0xd4d4beb3d9bed90d, 0x8d8d4601ca46ca47,
   0x6767d9ce70d97017, 0x72724be4dd4bddaf, 0x9494de3379de79ed, 0x9898d42b67d467ff, 0xb0b0e87b23e82393,
   0x85854a11de4ade5b, 0xbbbb6b6dbd6bbd06, 0xc5c52a917e2a7ebb, 0x4f4fe59e34e5347b, 0xeded16c13a163ad7,
   0x8686c51754c554d2, 0x9a9ad72f62d762f8, 0x666655ccff55ff99, 0x11119422a794a7b6, 0x8a8acf0f4acf4ac0,
   0xe9e910c9301030d9, 0x040406080a060a0e, 0xfefe81e798819866, 0xa0a0f05b0bf00bab, 0x787844f0cc44ccb4,
   0x2525ba4ad5bad5f0, 0x4b4be3963ee33e75, 0xa2a2f35f0ef30eac, 0x5d5dfeba19fe1944, 0x8080c01b5bc05bdb,
   0x05058a0a858a8580, 0x3f3fad7eecadecd3, 0x2121bc42dfbcdffe, 0x707048e0d848d8a8, 0xf1f104f90c040cfd,
   0x6363dfc67adf7a19, 0x7777c1ee58c1582f, 0xafaf75459f759f30, 0x42426384a563a5e7, 0x2020304050305070,
   0xe5e51ad12e1a2ecb, 0xfdfd0ee1120e12ef, 0xbfbf6d65b76db708, 0x81814c19d44cd455, 0x181814303c143c24,
   0x2626354c5f355f79, 0xc3c32f9d712f71b2, 0xbebee16738e13886, 0x3535a26afda2fdc8, 0x8888cc0b4fcc4fc7,
   0x2e2e395c4b394b65, 0x9393573df957f96a, 0x5555f2aa0df20d58, 0xfcfc82e39d829d61, 0x7a7a47f4c947c9b3,
   0xc8c8ac8befacef27, 0xbabae76f32e73288, 0x32322b647d2b7d4f, 0xe6e695d7a495a442, 0xc0c0a09bfba0fb3b,
   0x19199832b398b3aa, 0x9e9ed12768d168f6, 0xa3a37f5d817f8122, 0x44446688aa66aaee, 0x54547ea8827e82d6,
   0x3b3bab76e6abe6dd, 0x0b0b83169e839e95, 0x8c8cca0345ca45c9, 0xc7c729957b297bbc, 0x6b6bd3d66ed36e05,
   0x28283c50443c446c, 0xa7a779558b798b2c, 0xbcbce2633de23d81, 0x16161d2c271d2731, 0xadad76419a769a37,
   0xdbdb3bad4d3b4d96, 0x646456c8fa56fa9e, 0x74744ee8d24ed2a6, 0x14141e28221e2236, 0x9292db3f76db76e4,
   0x0c0c0a181e0a1e12, 0x48486c90b46cb4fc, 0xb8b8e46b37e4378f, 0x9f9f5d25e75de778, 0xbdbd6e61b26eb20f,
   0x4343ef862aef2a69, 0xc4c4a693f1a6f135, 0x3939a872e3a8e3da, 0x3131a462f7a4f7c6, 0xd3d337bd5937598a,
   0xf2f28bff868b8674, 0xd5d532b156325683, 0x8b8b430dc543c54e, 0x6e6e59dceb59eb85, 0xdadab7afc2b7c218,
   0x01018c028f8c8f8e, 0xb1b16479ac64ac1d, 0x9c9cd2236dd26df1, 0x4949e0923be03b72, 0xd8d8b4abc7b4c71f,
   0xacacfa4315fa15b9, 0xf3f307fd090709fa, 0xcfcf25856f256fa0, 0xcacaaf8feaafea20, 0xf4f48ef3898e897d,
   0x4747e98e20e92067, 0x1010182028182838, 0x6f6fd5de64d5640b, 0xf0f088fb83888373, 0x4a4a6f94b16fb1fb,
   0x5c5c72b8967296ca, 0x383824706c246c54, 0x5757f1ae08f1085f, 0x7373c7e652c75221, 0x97975135f351f364,
   0xcbcb238d652365ae, 0xa1a17c59847c8425, 0xe8e89ccbbf9cbf57, 0x3e3e217c6321635d, 0x9696dd377cdd7cea,
   0x6161dcc27fdc7f1e, 0x0d0d861a9186919c, 0x0f0f851e9485949b, 0xe0e090dbab90ab4b, 0x7c7c42f8c642c6ba,
   0x7171c4e257c45726, 0xccccaa83e5aae529, 0x9090d83b73d873e3, 0x0606050c0f050f09, 0xf7f701f5030103f4,
   0x1c1c12383612362a, 0xc2c2a39ffea3fe3c, 0x6a6a5fd4e15fe18b, 0xaeaef94710f910be, 0x6969d0d26bd06b02,
   0x1717912ea891a8bf, 0x99995829e858e871, 0x3a3a277469276953, 0x2727b94ed0b9d0f7, 0xd9d938a948384891,
   0xebeb13cd351335de, 0x2b2bb356ceb3cee5, 0x2222334455335577, 0xd2d2bbbfd6bbd604, 0xa9a9704990709039,
   0x0707890e80898087, 0x3333a766f2a7f2c1, 0x2d2db65ac1b6c1ec, 0x3c3c22786622665a, 0x1515922aad92adb8,
   0xc9c92089602060a9, 0x87874915db49db5c, 0xaaaaff4f1aff1ab0, 0x505078a0887888d8, 0xa5a57a518e7a8e2b,
   0x03038f068a8f8a89, 0x5959f8b213f8134a, 0x090980129b809b92, 0x1a1a173439173923, 0x6565daca75da7510,
   0xd7d731b553315384, 0x8484c61351c651d5, 0xd0d0b8bbd3b8d303, 0x8282c31f5ec35edc, 0x2929b052cbb0cbe2,
   0x5a5a77b4997799c3, 0x1e1e113c3311332d, 0x7b7bcbf646cb463d, 0xa8a8fc4b1ffc1fb7, 0x6d6dd6da61d6610c,
   0x2c2c3a584e3a4e62].map (BitVec.ofNat 64)

/-- constants/groestl_constants.hpp 22-551: `groestl_constants::T`. -/
def groestl_T : List (List (BitVec 64)) := [groestl_T0, groestl_T1, groestl_T2, groestl_T3, groestl_T4, groestl_T5, groestl_T6, groestl_T7]

end Digestpp.Model
