import Verif.Vocab

/-! Tables of algorithm/detail/constants/blake2_constants.hpp, copied by tools/gen_tables.py. -/

namespace Digestpp.Model

/-- constants/blake2_constants.hpp 21-24: `blake2b_constants::IV`. -/
def blake2b_IV : List (BitVec 64) :=
  [0x6a09e667f3bcc908, 0xbb67ae8584caa73b, 0x3c6ef372fe94f82b, 0xa54ff53a5f1d36f1, 0x510e527fade682d1,
   0x9b05688c2b3e6c1f, 0x1f83d9abfb41bd6b, 0x5be0cd19137e2179].map (BitVec.ofNat 64)

/-- constants/blake2_constants.hpp 33-35: `blake2s_constants::IV`. -/
def blake2s_IV : List (BitVec 32) :=
  [0x6a09e667, 0xbb67ae85, 0x3c6ef372, 0xa54ff53a, 0x510e527f, 0x9b05688c, 0x1f83d9ab, 0x5be0cd19].map (BitVec.ofNat 32)

/-- constants/blake2_constants.hpp 45-58: `blake2_constants::S`. -/
def blake2_S : List (List (BitVec 32)) :=
  [[0x00000000, 0x00000001, 0x00000002, 0x00000003, 0x00000004, 0x00000005, 0x00000006, 0x00000007, 0x00000008,
    0x00000009, 0x0000000a, 0x0000000b, 0x0000000c, 0x0000000d, 0x0000000e, 0x0000000f].map (BitVec.ofNat 32),
   [0x0000000e, 0x0000000a, 0x00000004, 0x00000008, 0x00000009, 0x0000000f, 0x0000000d, 0x00000006, 0x00000001,
    0x0000000c, 0x00000000, 0x00000002, 0x0000000b, 0x00000007, 0x00000005, 0x00000003].map (BitVec.ofNat 32),
   [0x0000000b, 0x00000008, 0x0000000c, 0x00000000, 0x00000005, 0x00000002, 0x0000000f, 0x0000000d, 0x0000000a,
    0x0000000e, 0x00000003, 0x00000006, 0x00000007, 0x00000001, 0x00000009, 0x00000004].map (BitVec.ofNat 32),
   [0x00000007, 0x00000009, 0x00000003, 0x00000001, 0x0000000d, 0x0000000c, 0x0000000b, 0x0000000e, 0x00000002,
    0x00000006, 0x00000005, 0x0000000a, 0x00000004, 0x00000000, 0x0000000f, 0x00000008].map (BitVec.ofNat 32),
   [0x00000009, 0x00000000, 0x00000005, 0x00000007, 0x00000002, 0x00000004, 0x0000000a, 0x0000000f, 0x0000000e,
    0x00000001, 0x0000000b, 0x0000000c, 0x00000006, 0x00000008, 0x00000003, 0x0000000d].map (BitVec.ofNat 32),
   [0x00000002, 0x0000000c, 0x00000006, 0x0000000a, 0x00000000, 0x0000000b, 0x00000008, 0x00000003, 0x00000004,
    0x0000000d, 0x00000007, 0x00000005, 0x0000000f, 0x0000000e, 0x00000001, 0x00000009].map (BitVec.ofNat 32),
   [0x0000000c, 0x00000005, 0x00000001, 0x0000000f, 0x0000000e, 0x0000000d, 0x00000004, 0x0000000a, 0x00000000,
    0x00000007, 0x00000006, 0x00000003, 0x00000009, 0x00000002, 0x00000008, 0x0000000b].map (BitVec.ofNat 32),
   [0x0000000d, 0x0000000b, 0x00000007, 0x0000000e, 0x0000000c, 0x00000001, 0x00000003, 0x00000009, 0x00000005,
    0x00000000, 0x0000000f, 0x00000004, 0x00000008, 0x00000006, 0x00000002, 0x0000000a].map (BitVec.ofNat 32),
   [0x00000006, 0x0000000f, 0x0000000e, 0x00000009, 0x0000000b, 0x00000003, 0x00000000, 0x00000008, 0x0000000c,
    0x00000002, 0x0000000d, 0x00000007, 0x00000001, 0x00000004, 0x0000000a, 0x00000005].map (BitVec.ofNat 32),
   [0x0000000a, 0x00000002, 0x00000008, 0x00000004, 0x00000007, 0x00000006, 0x00000001, 0x00000005, 0x0000000f,
    0x0000000b, 0x00000009, 0x0000000e, 0x00000003, 0x0000000c, 0x0000000d, 0x00000000].map (BitVec.ofNat 32),
   [0x00000000, 0x00000001, 0x00000002, 0x00000003, 0x00000004, 0x00000005, 0x00000006, 0x00000007, 0x00000008,
    0x00000009, 0x0000000a, 0x0000000b, 0x0000000c, 0x0000000d, 0x0000000e, 0x0000000f].map (BitVec.ofNat 32),
   [0x0000000e, 0x0000000a, 0x00000004, 0x00000008, 0x00000009, 0x0000000f, 0x0000000d, 0x00000006, 0x00000001,
    0x0000000c, 0x00000000, 0x00000002, 0x0000000b, 0x00000007, 0x00000005, 0x00000003].map (BitVec.ofNat 32)]

end Digestpp.Model
