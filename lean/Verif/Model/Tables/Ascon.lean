import Verif.Vocab

/-! Tables of algorithm/detail/constants/ascon_constants.hpp, copied by tools/gen_tables.py. -/

namespace Digestpp.Model

/-- constants/ascon_constants.hpp 24-28: `ascon_constants::RC`. -/
def ascon_RC : List (BitVec 64) :=
  [0x00000000000000f0, 0x00000000000000e1, 0x00000000000000d2, 0x00000000000000c3, 0x00000000000000b4,
   0x00000000000000a5, 0x0000000000000096, 0x0000000000000087, 0x0000000000000078, 0x0000000000000069,
   0x000000000000005a, 0x000000000000004b].map (BitVec.ofNat 64)

/-- constants/ascon_constants.hpp 31-34: `ascon_constants::IVHASH`. -/
def ascon_IVHASH : List (BitVec 64) :=
  [0x9b1e5494e934d681, 0x4bc3a01e333751d2, 0xae65396c6b34b81a, 0x3c7fd4a4d56a4db3, 0x1a5c464906c5976d].map (BitVec.ofNat 64)

/-- constants/ascon_constants.hpp 37-40: `ascon_constants::IVXOF`. -/
def ascon_IVXOF : List (BitVec 64) :=
  [0xda82ce768d9447eb, 0xcc7ce6c75f1ef969, 0xe7508fd780085631, 0x0ee0ea53416b58cc, 0xe0547524db6f0bde].map (BitVec.ofNat 64)

/-- constants/ascon_constants.hpp 43-46: `ascon_constants::IVCXOF`. -/
def ascon_IVCXOF : List (BitVec 64) :=
  [0x675527c2a0e8de03, 0x43d12d7dc0377bbc, 0xe9901dec426e81b5, 0x2ab14907720780b6, 0x8f3f1d02d432bc46].map (BitVec.ofNat 64)

end Digestpp.Model
