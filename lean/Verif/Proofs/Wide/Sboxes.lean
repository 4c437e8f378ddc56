import Verif.Proofs.Wide.Ddt
import Verif.Proofs.Wide.Streebog
import Verif.Proofs.Wide.Kupyna
import Verif.Proofs.Wide.Whirlpool

/-! The S-boxes. -/

namespace Digestpp.Proofs.Wide
open Spec

/-- The S-box as a number. -/
def aes_packed : Nat :=
  0x16bb54b00f2d99416842e6bf0d89a18cdf2855cee9871e9b948ed9691198f8e19e1dc186b95735610ef6034866b53e708a8bbd4b1f74dde8c6b4a61c2e2578ba08ae7a65eaf4566ca94ed58d6d37c8e779e4959162acd3c25c2406490a3a32e0db0b5ede14b8ee4688902a22dc4f816073195d643d7ea7c41744975fec130ccdd2f3ff1021dab6bcf5389d928f40a351a89f3c507f02f94585334d43fbaaefd0cf584c4a39becb6a5bb1fc20ed00d153842fe329b3d63b52a05a6e1b1a2c830975b227ebe28012079a059618c323c7041531d871f1e5a534ccf73f362693fdb7c072a49cafa2d4adf04759fa7dc982ca76abd7fe2b670130c56f6bf27b777c63

theorem aes_uniformity : Uniformity (fun x => (aesTable).getD x.toNat 0) 4 :=
  uniformity_of aes_packed 3 3 4 _ (by unfold IsPacked; decide +kernel) (by decide) (by decide) (by decide +kernel) (by decide) 0x1 0x1f (by decide)
    (by decide +kernel)

/-- The S-box as a number. -/
def whirlpool_packed : Nat :=
  0x86f85c28a49842ccedd0b67009693a16e11489ac46f674316c9d0bdc53c1bb2aa97f445603c46ee7d32c13b9f794813cebb74e8f11ceab3b247edffa0d6d995104fcc7431e9c21b361e2a5d18c38785e4c3972845925c5f996a8d4621f0ee6b28a0675924dfd1cdec02fba65eaa2553fef30f345506aafb51bd682762bcf00973d8da1dbecc308401273f164229354b4ae1a68205f907aff4834cdbe80d50fe9b032269a885be3f2d94919c871aa026333835aad07bf2dca9e4717dd667ceefbd8957da78b4127e467053ecbf4105dbd856ba0b10a29c958da4af09fe537771557fe4b2ec2d7e01d357b0ca38e9bbc6052916f79f5d2a6364f01b887e8c62318

theorem whirlpool_uniformity : Uniformity (fun x => (Whirlpool.box).getD x.toNat 0) 8 :=
  uniformity_of whirlpool_packed 4 7 8 _ (by unfold IsPacked; decide +kernel) (by decide) (by decide) (by decide +kernel) (by decide) 0x1 0x90 (by decide)
    (by decide +kernel)

/-- The S-box as a number. -/
def kupyna0_packed : Nat :=
  0x80568b7ccae625852aa7444eedc054818d73d6cfb95129120c13d9d0106452acc8e3623cb85707c41a50f87e0d0aeaf7823d20905ec105fb7fd403358ce8ef2f26f6aa9499f1ec1c318ae9aebdcebeb376a20b2d74a602c5a0986800e5011178b191305ddeb5406770d3d79d3a6984ebff891b3fb0217dcd4618da5c60fe4c9b55089f14f5ba778e3bb2c736282433221ec37b38db5bf98653a5886ab7fc48344147a9bc0f6665c22b2316965ae2e72e27046e8f4aabcc9c327ae4423783f2dca1bba458add519f4eefa63d1619e7292c693d249e115bf1f0e9ab6b44fa3dd3e39454b6ffd97e079af2c4dc9cb1df36d09d8f0179587df71596c756b065f43a8

theorem kupyna0_uniformity : Uniformity (fun x => (Spec.Kupyna.pi0).getD x.toNat 0) 8 :=
  uniformity_of kupyna0_packed 4 7 8 _ (by unfold IsPacked; decide +kernel) (by decide) (by decide) (by decide +kernel) (by decide) 0x5 0x10 (by decide)
    (by decide +kernel)

/-- The S-box as a number. -/
def kupyna1_packed : Nat :=
  0xd729c0c7278a7f2166a7ed5af001c2b659dbfb3403c604eca65ebe87d0dd2c72adac991fcdde3539af61b353742f7a5082f252e285d3774fa3e8849a28946ef10524251d76230ce0a8b8e1381e80468bf978e6a9c3ff40e4a0703bef4b71321898b0b9076a9d8f0b860947c4fe1b937d513d0a0ecf9cd511bf55a27e00c9da2a5f83a5a4062d62d4973fb54a6cb7dc3020e38c89e5790d1241fc4596fd482be7ca60376fd97b4981a1193ccc5b8e634cee9195164e689bd1faab33bdf3696b1abcd81054aec8149f3e445d08f72e267c4d736ddfb1020f75aa22f49e5864f6318d6757f5ba365cc543881c65b4561542f81790d2b2d63ae9c113cbea92ebbbce

theorem kupyna1_uniformity : Uniformity (fun x => (Spec.Kupyna.pi1).getD x.toNat 0) 8 :=
  uniformity_of kupyna1_packed 4 7 8 _ (by unfold IsPacked; decide +kernel) (by decide) (by decide) (by decide +kernel) (by decide) 0x45 0x7d (by decide)
    (by decide +kernel)

/-- The S-box as a number. -/
def kupyna2_packed : Nat :=
  0x67740cf88b21348caa548639dba004424446065a61e7a7c57f0a47f15813fff691e8652a683d231b63755f01bf79f56b8284644beab026328919beaef308b65243dd96bd6ff2fafec10dfb1a3acaf973a231eeab8eceeb20bc8a1c071f5769b383405b3ed295302824370f50a899cf272980edece91df7c78d883f6d5df0c987335eaf60e5b1fd667e6c6e14d6050b1e38da7ca4152fb8ace2b99ccc778f815648e636d397187bd0c655a94d9e4fd51035cb7d9d124eef922ec3001103d7a52590b2de4c410e3b09b4b77876e3c42ca672d1e02dc87aa15385ad9b5cd8c03c49e11670cdd471e462a3bbf494c22b174a5951dc9f02df6abafc452298b59ad993

theorem kupyna2_uniformity : Uniformity (fun x => (Spec.Kupyna.pi2).getD x.toNat 0) 8 :=
  uniformity_of kupyna2_packed 4 7 8 _ (by unfold IsPacked; decide +kernel) (by decide) (by decide) (by decide +kernel) (by decide) 0x2 0x7e (by decide)
    (by decide +kernel)

/-- The S-box as a number. -/
def kupyna3_packed : Nat :=
  0x61e01b57c9b8917f174ca959f0dc6d64363b9874ade3950b787d5aba766bbbcbef80fca5b4de35815c879dfef782b0e73984126aaf1ca3962be6060a0f93c6a77ae2a269cd3f47dac501506f8e00906cc742d0b9d9e43349040775f665f82e97b2c1fffb1d8c8ba4c0ebc229d7b69fc30927bf2177439a05a0638f7bf1107e345bacdd287cdb2067eca8a6240c62bcea60fa9c89abd8889baa5fbe37fd154472712cc418b14192a130d348c8eeae14319932cf2385d64fe986f9f4e50e6e38b5dfe1d23a1ace085694e8cc4045f35d70663c16d15e553ef2119e51ed020d2f58bdf57925d5b78a1383534a2d3d4603221f191e54b32652d42a4e4b734dca8d68

theorem kupyna3_uniformity : Uniformity (fun x => (Spec.Kupyna.pi3).getD x.toNat 0) 8 :=
  uniformity_of kupyna3_packed 4 7 8 _ (by unfold IsPacked; decide +kernel) (by decide) (by decide) (by decide +kernel) (by decide) 0x1f 0xaa (by decide)
    (by decide +kernel)

/-- The S-box as a number. -/
def streebog_packed : Nat :=
  0xb6634b39c2af66d1c0b4f4e6d274a659526ce5bed0259bcb5b092b2da46771206185d8ca90aa538dfef83f4c49831be189e7d988e46b3730f71dac8640b358073b95d5697da5a38c2f555e27924645ad41269f648238b81a4462001e736097a74a0a334e5028e8dcbcb0947adeec0fe003b9227cf6d679d7c943a83ea924f5df570dbdc380c6546d7e8a35ff3d197532b1b29e9d6f7891f3c79a7b102996a115875db79c471372bf12760c08560e70b5ccce3afda2682af2ab48c8ea512c34eb1fd3d47f98ed0b06a08f6ae3ae0284054f8e018b423c1c8121ef5ce25a6518f9c15fcd14bbf13617ba992e93dbf077e94d04c523dafac4fb16316ecf11ddeefc

theorem streebog_uniformity : Uniformity (fun x => (Spec.Streebog.pi).getD x.toNat 0) 8 :=
  uniformity_of streebog_packed 4 7 8 _ (by unfold IsPacked; decide +kernel) (by decide) (by decide) (by decide +kernel) (by decide) 0x5 0xde (by decide)
    (by decide +kernel)

end Digestpp.Proofs.Wide
