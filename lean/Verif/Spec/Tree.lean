import Verif.Spec.Inner

/-! Functions made of several calls of a simpler one: KangarooTwelve and its relatives, the parallel BLAKE2, BLAKE2X. For C64. A collision of such a function is one of a node. -/

namespace Digestpp.Spec.Inputs

/-- One sponge of KangarooTwelve (RFC 9861, section 2: TurboSHAKE); the parameter is the domain byte. -/
def turbo (R r : Nat) : Iter Byte Keccak.State Bytes (Nat → Byte) where
  inputs := fun D X => chunks r (Keccak.padD r D X)
  iv := List.replicate 25 0
  f := keccakStep R
  out := fun _ => Keccak.squeeze R r

/-- A node whose sponge is evaluated for the string `S` (RFC 9861, section 3.2), if `n` bytes of output are asked for: domain byte, string, bytes of output used. -/
inductive K12Node (R r c : Nat) (S : Bytes) (n : Nat) : Byte → Bytes → Nat → Prop
  | single : S.length ≤ 8192 → K12Node R r c S n 0x07 S n
  | final : 8192 < S.length → K12Node R r c S n 0x06 (K12.finalNode R r c S) n
  | leaf (i : Nat) : 8192 < S.length → 0 < i → i < K12.count S → K12Node R r c S n 0x0b (K12.piece i S) c

/-- One of the nodes of `S` and one of the nodes of `S'` are different, give the same output as far as it is used, and in their computation there is an inner collision, or their final states are
different. -/
def K12Collision (R r c : Nat) (S S' : Bytes) (n : Nat) : Prop :=
  ∃ D X D' X' k, K12Node R r c S n D X k ∧ K12Node R r c S' n D' X' k ∧ ¬ (D = D' ∧ X = X') ∧
    slice (K12.turbo R r D X) 0 k = slice (K12.turbo R r D' X') 0 k ∧
    ((turbo R r).InnerCollision (Keccak.Inner r) D D' X X' ∨ (turbo R r).chain D X ≠ (turbo R r).chain D' X')

/-- A node of BLAKE2 with any parameters (RFC 7693 and the BLAKE2 paper, section 2.10); whether it is the last of its level. The output is not truncated. -/
def blake2Node {w : Nat} (v : Blake2.Variant w) : Iter (Blake2.Params × Bool) (Nat → BitVec w) Blake2Item Bytes where
  inputs := fun θ data => blake2Items v θ.1 θ.2 data
  iv := v.IV
  f := blake2Step v
  out := fun _ h => bytes8 h

/-- In the computation of two nodes the compression function is called with different arguments and has the same result. -/
def NodeCollision {w : Nat} (v : Blake2.Variant w) (p p' : Blake2.Params) (l l' : Bool) (data data' : Bytes) : Prop :=
  ∃ k k' t f0 f1 b t' f0' f1' b', (blake2Items v p l data)[k]? = some (.block t f0 f1 b) ∧ (blake2Items v p' l' data')[k']? = some (.block t' f0' f1' b') ∧
    (bytes8 ((blake2Node v).before (p, l) data k), t, f0, f1, b) ≠ (bytes8 ((blake2Node v).before (p', l') data' k'), t', f0', f1', b') ∧
    bytes8 (Blake2.F v t f0 f1 b ((blake2Node v).before (p, l) data k)) = bytes8 (Blake2.F v t' f0' f1' b' ((blake2Node v).before (p', l') data' k'))

/-- Different untruncated results of two nodes that agree in the first `n` bytes. -/
def NodeTruncation {w : Nat} (v : Blake2.Variant w) (p p' : Blake2.Params) (l l' : Bool) (data data' : Bytes) (n : Nat) : Prop :=
  Blake2.core v p l data ≠ Blake2.core v p' l' data' ∧ (Blake2.core v p l data).take n = (Blake2.core v p' l' data').take n

/-- The data of leaf `i`. -/
def leafData (w P i : Nat) (θ : Blake2.Theta) (msg : Bytes) : Bytes := Blake2.keyed (2 * w) θ.key (Blake2.stripe (2 * w) P i msg)

/-- The data of the root. -/
def rootData {w : Nat} (v : Blake2.Variant w) (P n : Nat) (θ : Blake2.Theta) (msg : Bytes) : Bytes :=
  (List.range P).flatMap fun i => Blake2.core v (blake2pNode w P n θ 0 i) (i + 1 = P) (leafData w P i θ msg)

/-- Parameters of output block `i` of BLAKE2X. -/
def xNode (w : Nat) (θ : Blake2.Theta) (xofLen i digestLen : Nat) : Blake2.Params := ⟨digestLen, 0, 0, 0, w, i, xofLen, 0, w, θ.salt, θ.personal⟩

end Digestpp.Spec.Inputs
