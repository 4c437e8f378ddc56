import Verif.Vocab

/-! Tables of algorithm/detail/constants/sha1_constants.hpp, copied by tools/gen_tables.py. -/

namespace Digestpp.Model

/-- constants/sha1_constants.hpp 21-23: `sha1_constants::K`. -/
def sha1_K : List (BitVec 32) :=
  [0x5a827999, 0x6ed9eba1, 0x8f1bbcdc, 0xca62c1d6].map (BitVec.ofNat 32)

end Digestpp.Model
