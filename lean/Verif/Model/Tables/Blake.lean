import Verif.Vocab

/-! Tables of algorithm/detail/constants/blake_constants.hpp, copied by tools/gen_tables.py. -/

namespace Digestpp.Model

/-- constants/blake_constants.hpp 24-27: `blake_constants::c`. -/
def blake_c : List (BitVec 32) :=
  [0x243f6a88, 0x85a308d3, 0x13198a2e, 0x03707344, 0xa4093822, 0x299f31d0, 0x082efa98, 0xec4e6c89, 0x452821e6,
   0x38d01377, 0xbe5466cf, 0x34e90c6c, 0xc0ac29b7, 0xc97c50dd, 0x3f84d5b5, 0xb5470917].map (BitVec.ofNat 32)

/-- constants/blake_constants.hpp 30-35: `blake_constants::c512`. -/
def blake_c512 : List (BitVec 64) :=
  [0x243f6a8885a308d3, 0x13198a2e03707344, 0xa4093822299f31d0, 0x082efa98ec4e6c89, 0x452821e638d01377,
   0xbe5466cf34e90c6c, 0xc0ac29b7c97c50dd, 0x3f84d5b5b5470917, 0x9216d5d98979fb1b, 0xd1310ba698dfb5ac,
   0x2ffd72dbd01adfb7, 0xb8e1afed6a267e96, 0xba7c9045f12c7f99, 0x24a19947b3916cf7, 0x0801f2e2858efc16,
   0x636920d871574e69].map (BitVec.ofNat 64)

/-- constants/blake_constants.hpp 38-49: `blake_constants::S`. -/
def blake_S : List (List (BitVec 32)) :=
  [[0x00000000, 0x00000001, 0x00000002, 0x00000003, 0x00000004, 0x00000005, 0x00000006, 0x00000007, 0x00000008,
    0x00000009, 0x0000000a, 0x0000000b, 0x0000000c, 0x0000000d, 0x0000000e, 0x0000000f].map (BitVec.ofNat 32),
   [0x0000000e, 0x0000000a, 0x00000004, 0x00000008, 0x00000009, 0x0000000f, 0x0000000d, 0x00000006, 0x00000001,
    0x0000000c, 0x00000000, 0x00000002, 0x0000000b, 0x00000007, 0x00000005, 0x00000003].map (BitVec.ofNat 32),
   [0x0000000b, 0x00000008, 0x0000000c, 0x00000000, 0x00000005, 0x00000002, 0x0000000f, 0x0000000d, 0x0000000a,
    0x0000000e, 0x00000003, 0x00000006, 0x00000007, 0x00000001, 0x00000009, 0x00000004].map (BitVec.ofNat 32),
   [0x00000007, 0x00000009, 0x00000003, 0x00000001, 0x0000000d, 0x0000000c, 0x0000000b, 0x0000000e, 0x00000002,
    0x00000006, 0x00000005, 0x0000000a, 0x00000004, 0x00000000, 0x0000000f, 0x00000008].map (BitVec.ofNat 32),
   [0x00000009, 0x00000000, 0x00000005, 0x00000007, 0x00000002, 0x00000004, 0x0000000a, 0x0000000f, 0x0000000e,
    0x00000001, 0x0000000b, 0x0000000c, 0x00000006, 0x00000008, 0x00000003, 0x0000000d].map (BitVec.ofNat 32),
   [0x00000002, 0x0000000c, 0x00000006, 0x0000000a, 0x00000000, 0x0000000b, 0x00000008, 0x00000003, 0x00000004,
    0x0000000d, 0x00000007, 0x00000005, 0x0000000f, 0x0000000e, 0x00000001, 0x00000009].map (BitVec.ofNat 32),
   [0x0000000c, 0x00000005, 0x00000001, 0x0000000f, 0x0000000e, 0x0000000d, 0x00000004, 0x0000000a, 0x00000000,
    0x00000007, 0x00000006, 0x00000003, 0x00000009, 0x00000002, 0x00000008, 0x0000000b].map (BitVec.ofNat 32),
   [0x0000000d, 0x0000000b, 0x00000007, 0x0000000e, 0x0000000c, 0x00000001, 0x00000003, 0x00000009, 0x00000005,
    0x00000000, 0x0000000f, 0x00000004, 0x00000008, 0x00000006, 0x00000002, 0x0000000a].map (BitVec.ofNat 32),
   [0x00000006, 0x0000000f, 0x0000000e, 0x00000009, 0x0000000b, 0x00000003, 0x00000000, 0x00000008, 0x0000000c,
    0x00000002, 0x0000000d, 0x00000007, 0x00000001, 0x00000004, 0x0000000a, 0x00000005].map (BitVec.ofNat 32),
   [0x0000000a, 0x00000002, 0x00000008, 0x00000004, 0x00000007, 0x00000006, 0x00000001, 0x00000005, 0x0000000f,
    0x0000000b, 0x00000009, 0x0000000e, 0x00000003, 0x0000000c, 0x0000000d, 0x00000000].map (BitVec.ofNat 32)]

end Digestpp.Model
