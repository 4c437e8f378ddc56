import Verif.Spec.Collision

/-! Inner collisions of sponge functions, for C60. -/

namespace Digestpp.Spec.Iter
variable {Θ V I O : Type}

/-- In the computation of two hashes, different sequences of inputs, neither of them complete, lead to states that agree in the part `inner` compares. -/
def InnerCollision (it : Iter Θ V I O) (inner : V → V → Prop) (θ θ' : Θ) (msg msg' : Bytes) : Prop :=
  ∃ X X', X <+: it.inputs θ msg ∧ X' <+: it.inputs θ' msg' ∧ X.length < (it.inputs θ msg).length ∧ X'.length < (it.inputs θ' msg').length ∧
    X ≠ X' ∧ inner (X.foldl it.f it.iv) (X'.foldl it.f it.iv)

/-- Two inputs with the same result: then there is an inner collision, or different final states give the same output. -/
def ReducesToInner (it : Iter Θ V I O) (bytes : V → Bytes) (inner : V → V → Prop) (ok : Θ → Bytes → Prop) : Prop :=
  ∀ θ θ' msg msg', ok θ msg → ok θ' msg' → ¬ (θ = θ' ∧ msg = msg') → it.result θ msg = it.result θ' msg' →
    it.InnerCollision inner θ θ' msg msg' ∨ it.OutCollision bytes θ θ' msg msg'

end Digestpp.Spec.Iter

namespace Digestpp.Spec

/-- The states of Keccak agree behind the first `r` bytes. -/
def Keccak.Inner (r : Nat) (A A' : Keccak.State) : Prop := (ofLeWords A).drop r = (ofLeWords A').drop r

/-- The states of Ascon agree in all words but the first. -/
def Ascon.Inner (s s' : Ascon.State) : Prop := s.s1 = s'.s1 ∧ s.s2 = s'.s2 ∧ s.s3 = s'.s3 ∧ s.s4 = s'.s4

/-- The states of Esch differ by a block, as it is added to the state, and perhaps by the constants of the last block. -/
def Esch.Inner (h : Nat) (B B' : Esch.Branches) : Prop :=
  ∃ b : Bytes, b.length = 16 ∧ ∃ k : BitVec 32, (k = 0 ∨ k = 3) ∧ ∀ i, i < 2 * h → B' i = Esch.inject h (Esch.addConst h (k <<< 24) B) b i

/-- The bytes of the `2 * h` branches of a state. -/
def Esch.stateBytes (h : Nat) (B : Esch.Branches) : Bytes := ofLeWords ((List.range (2 * h)).flatMap fun i => [(B i).1, (B i).2])

/-- The bytes of the five words of a state. -/
def Ascon.stateBytes (s : Ascon.State) : Bytes := ofLeWords [s.s0, s.s1, s.s2, s.s3, s.s4]

namespace Inputs

/-- cSHAKE. -/
def cshake (b : Nat) : Iter Keccak.CShakeParams Keccak.State Bytes (Nat → Byte) where
  inputs := fun θ msg => chunks (200 - 2 * b / 8) (cshakeInput (200 - 2 * b / 8) θ msg)
  iv := List.replicate 25 0
  f := keccakStep 24
  out := fun _ => Keccak.squeeze 24 (200 - 2 * b / 8)

/-- KMAC with a digest of `hs` bits. -/
def kmac (b hs : Nat) : Iter KmacParams Keccak.State Bytes Bytes where
  inputs := fun θ msg => chunks (200 - 2 * b / 8) (kmacInput (200 - 2 * b / 8) hs θ msg)
  iv := List.replicate 25 0
  f := keccakStep 24
  out := fun _ A => slice (Keccak.squeeze 24 (200 - 2 * b / 8) A) 0 (hs / 8)

/-- KMACXOF. -/
def kmacXof (b : Nat) : Iter KmacParams Keccak.State Bytes (Nat → Byte) where
  inputs := fun θ msg => chunks (200 - 2 * b / 8) (kmacInput (200 - 2 * b / 8) 0 θ msg)
  iv := List.replicate 25 0
  f := keccakStep 24
  out := fun _ => Keccak.squeeze 24 (200 - 2 * b / 8)

/-- What the first `n` bytes of an output depend on. -/
def firstBytes {Θ V I : Type} (n : Nat) (it : Iter Θ V I (Nat → Byte)) : Iter Θ V I Bytes where
  inputs := it.inputs
  iv := it.iv
  f := it.f
  out := fun θ v => slice (it.out θ v) 0 n

end Inputs
end Digestpp.Spec
