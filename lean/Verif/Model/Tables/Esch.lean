import Verif.Vocab

/-! Tables of algorithm/detail/constants/esch_constants.hpp, copied by tools/gen_tables.py. -/

namespace Digestpp.Model

/-- constants/esch_constants.hpp 21-23: `esch_constants::C`. -/
def esch_C : List (BitVec 32) :=
  [0xb7e15162, 0xbf715880, 0x38b4da56, 0x324e7738, 0xbb1185eb, 0x4f7c7b57, 0xcfbfa1c8, 0xc2b3293d].map (BitVec.ofNat 32)

end Digestpp.Model
