import Verif.Spec.Inputs

/-! Collisions of iterated hash functions, for C51. Chaining values are compared by their bytes. -/

namespace Digestpp.Spec.Iter
variable {Θ V I O : Type}

/-- The chaining value before call number `k` of the compression function. -/
def before (it : Iter Θ V I O) (θ : Θ) (msg : Bytes) (k : Nat) : V := ((it.inputs θ msg).take k).foldl it.f it.iv

/-- In the computation of two hashes, the compression function is called with different arguments and has the same result. -/
def StepCollision (it : Iter Θ V I O) (bytes : V → Bytes) (θ θ' : Θ) (msg msg' : Bytes) : Prop :=
  ∃ k k' i i', (it.inputs θ msg)[k]? = some i ∧ (it.inputs θ' msg')[k']? = some i' ∧
    (bytes (it.before θ msg k), i) ≠ (bytes (it.before θ' msg' k'), i') ∧
    bytes (it.f (it.before θ msg k) i) = bytes (it.f (it.before θ' msg' k') i')

/-- Different final chaining values give the same output. -/
def OutCollision (it : Iter Θ V I O) (bytes : V → Bytes) (θ θ' : Θ) (msg msg' : Bytes) : Prop :=
  bytes (it.chain θ msg) ≠ bytes (it.chain θ' msg') ∧ it.out θ (it.chain θ msg) = it.out θ' (it.chain θ' msg')

/-- In the computation of a hash, the initial value occurs again. -/
def Returns (it : Iter Θ V I O) (bytes : V → Bytes) (θ : Θ) (msg : Bytes) : Prop :=
  ∃ k, 0 < k ∧ k ≤ (it.inputs θ msg).length ∧ bytes (it.before θ msg k) = bytes it.iv

/-- Finding two inputs with the same hash is as hard as finding a collision of the compression function or of the output step. -/
def Reduces (it : Iter Θ V I O) (bytes : V → Bytes) (ok : Θ → Bytes → Prop) : Prop :=
  ∀ θ θ' msg msg', ok θ msg → ok θ' msg' → ¬ (θ = θ' ∧ msg = msg') → it.result θ msg = it.result θ' msg' →
    it.StepCollision bytes θ θ' msg msg' ∨ it.OutCollision bytes θ θ' msg msg'

/-- The same where the digest is the whole chaining value. -/
def ReducesToStep (it : Iter Θ V I O) (bytes : V → Bytes) (ok : Θ → Bytes → Prop) : Prop :=
  ∀ θ θ' msg msg', ok θ msg → ok θ' msg' → ¬ (θ = θ' ∧ msg = msg') → it.result θ msg = it.result θ' msg' →
    it.StepCollision bytes θ θ' msg msg'

end Digestpp.Spec.Iter

namespace Digestpp.Spec.Inputs

/-- The bytes of the eight words of a chaining value of BLAKE or BLAKE2. -/
def bytes8 {w : Nat} (h : Nat → BitVec w) : Bytes := ofLeWords ((List.range 8).map h)

/-- In the computation of two hashes, the compression function of BLAKE2 is called with different arguments (chaining value, counter,
flags, block) and has the same result. -/
def BlockCollision {w : Nat} {O : Type} (v : Blake2.Variant w) (it : Iter Blake2.Theta (Nat → BitVec w) Blake2Item O)
    (θ θ' : Blake2.Theta) (msg msg' : Bytes) : Prop :=
  ∃ k k' t f0 f1 b t' f0' f1' b', (it.inputs θ msg)[k]? = some (.block t f0 f1 b) ∧
    (it.inputs θ' msg')[k']? = some (.block t' f0' f1' b') ∧
    (bytes8 (it.before θ msg k), t, f0, f1, b) ≠ (bytes8 (it.before θ' msg' k'), t', f0', f1', b') ∧
    bytes8 (Blake2.F v t f0 f1 b (it.before θ msg k)) = bytes8 (Blake2.F v t' f0' f1' b' (it.before θ' msg' k'))

end Digestpp.Spec.Inputs
