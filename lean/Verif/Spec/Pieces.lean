import Verif.Spec.Api

/-! Consecutive pieces of an output stream. -/

namespace Digestpp.Spec

/-- From the byte with number `n` on, pieces of the given lengths one after the other. -/
def pieces (stream : Nat → Byte) : Nat → List Nat → List Bytes
  | _, [] => []
  | n, k :: ks => slice stream n k :: pieces stream (n + k) ks

end Digestpp.Spec
