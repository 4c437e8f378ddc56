import Verif.Spec.SpongeInputs
import Verif.Spec.Md5
import Verif.Spec.Sha1
import Verif.Spec.Sha2
import Verif.Spec.Sm3
import Verif.Spec.Whirlpool
import Verif.Spec.Kupyna
import Verif.Spec.Groestl
import Verif.Spec.Echo
import Verif.Spec.Jh
import Verif.Spec.Streebog
import Verif.Spec.Lsh
import Verif.Spec.Blake
import Verif.Spec.Blake2
import Verif.Spec.Skein
import Verif.Spec.Esch
import Verif.Spec.Ascon

/-! Hash functions as iterations of a compression function or permutation, for C40 and C51: what is handed to it in each call besides the
chaining value. -/

namespace Digestpp.Spec

/-- An iterated hash function with parameters `Θ`, chaining values `V`, inputs `I` of the compression function, results `O`. -/
structure Iter (Θ V I O : Type) where
  /-- the inputs of the successive calls of the compression function -/
  inputs : Θ → Bytes → List I
  /-- the initial value, which does not depend on anything -/
  iv : V
  /-- the compression function -/
  f : V → I → V
  /-- what happens after the last message block -/
  out : Θ → V → O

namespace Iter
variable {Θ V I O : Type}

/-- The chaining value after all inputs. -/
def chain (it : Iter Θ V I O) (θ : Θ) (msg : Bytes) : V := (it.inputs θ msg).foldl it.f it.iv

/-- The hash of a message. -/
def result (it : Iter Θ V I O) (θ : Θ) (msg : Bytes) : O := it.out θ (it.chain θ msg)

/-- The inputs of the compression function determine the parameters and the message. -/
def Determines (it : Iter Θ V I O) (ok : Θ → Bytes → Prop) : Prop :=
  ∀ θ θ' msg msg', ok θ msg → ok θ' msg' → it.inputs θ msg = it.inputs θ' msg' → θ = θ' ∧ msg = msg'

end Iter

/-- Blocks with something that depends on their number. -/
def numbered {α β : Type} (n : Nat) (c : Nat → β) (l : List α) : List (β × List α) :=
  (List.range (l.length / n)).map fun i => (c i, blockAt n i l)

namespace Inputs

def md5 : Iter Unit (BitVec 32 × BitVec 32 × BitVec 32 × BitVec 32) Bytes Bytes where
  inputs := fun _ msg => chunks 64 (mdPad 64 (leBytes 8 (8 * msg.length)) msg)
  iv := (0x67452301, 0xefcdab89, 0x98badcfe, 0x10325476)
  f := Md5.compress
  out := fun _ h => ofLeWords [h.1, h.2.1, h.2.2.1, h.2.2.2]

def sha1 : Iter Unit Sha1.H Bytes Bytes where
  inputs := fun _ msg => chunks 64 (mdPad 64 (beBytes 8 (8 * msg.length)) msg)
  iv := (0x67452301, 0xefcdab89, 0x98badcfe, 0x10325476, 0xc3d2e1f0)
  f := Sha1.compress
  out := fun _ h => ofBeWords [h.1, h.2.1, h.2.2.1, h.2.2.2.1, h.2.2.2.2]

/-- SHA-2 with digests of `n` bytes. -/
def sha2 {w : Nat} (v : Sha2.Variant w) (iv : Sha2.H8 w) (n : Nat) : Iter Unit (Sha2.H8 w) Bytes Bytes where
  inputs := fun _ msg => chunks (2 * w) (mdPad (2 * w) (beBytes (w / 4) (bits64 msg.length)) msg)
  iv := iv
  f := Sha2.compress v
  out := fun _ h => h.bytes.take n

def sm3 : Iter Unit Sm3.H8 Bytes Bytes where
  inputs := fun _ msg => chunks 64 (mdPad 64 (beBytes 8 (8 * msg.length)) msg)
  iv := ⟨0x7380166f, 0x4914b2b9, 0x172442d7, 0xda8a0600, 0xa96f30bc, 0x163138aa, 0xe38dee4d, 0xb0fb0e4e⟩
  f := Sm3.compress
  out := fun _ h => ofBeWords [h.a, h.b, h.c, h.d, h.e, h.f, h.g, h.h]

def whirlpool : Iter Unit Mat Bytes Bytes where
  inputs := fun _ msg => chunks 64 (mdPad 64 (beBytes 32 (wrap64 (8 * msg.length))) msg)
  iv := fun _ _ => 0
  f := fun h b => Whirlpool.compress h (Whirlpool.mu b)
  out := fun _ h => (List.range 8).flatMap fun i => (List.range 8).map fun j => h i j

def kupyna (c n : Nat) : Iter Unit Mat Bytes Bytes where
  inputs := fun _ msg => chunks (8 * c) (Kupyna.pad wrap64 c msg)
  iv := Kupyna.iv c
  f := fun h b => Kupyna.f c h (matOf b)
  out := fun _ h => (matBytes c (matXor (Kupyna.Tx c h) h)).drop (8 * c - n)

def groestl (c n : Nat) : Iter Unit Mat Bytes Bytes where
  inputs := fun _ msg => chunks (8 * c) (Groestl.padWrap c msg)
  iv := matOf (beBytes (8 * c) (8 * n))
  f := fun h b => Groestl.f c h (matOf b)
  out := fun _ h => (matBytes c (matXor (Groestl.P c h) h)).drop (8 * c - n)

def jh (n : Nat) : Iter Unit Jh.Bits Bytes Bytes where
  inputs := fun _ msg => chunks 64 (Jh.pad wrap64 msg)
  iv := Jh.iv n
  f := fun H b => Jh.F8 H (Jh.bitsOf b)
  out := fun _ H => (Jh.bytesOf 128 H).drop (128 - n)

/-- Each call gets salt, counter and block. -/
def echo (cw n : Nat) : Iter Bytes Echo.State ((Bytes × Nat) × Bytes) Bytes where
  inputs := fun salt msg =>
    numbered (16 * (16 - cw)) (fun i => (salt, Echo.counter (16 * (16 - cw)) msg.length i)) (Echo.pad wrap64 (16 * (16 - cw)) n msg)
  iv := fun _ => Echo.state (leBytes 16 (8 * n))
  f := fun V x => Echo.compress wrap64 cw (Echo.state x.1.1) x.1.2 x.2 V
  out := fun _ V => ((List.range cw).flatMap fun t => Echo.stateBytes (V t)).take n

/-- Each call gets the number of bits before the block, and the block; then follow the length and the checksum. -/
def streebog (n : Nat) : Iter Unit Mat (Nat × Bytes) Bytes where
  inputs := fun _ msg => numbered 64 (fun k => wrap64 (512 * k)) (Streebog.pad msg) ++
    [(0, leBytes 64 (wrap64 (8 * msg.length))),
     (0, leBytes 64 (Streebog.sumWith Streebog.addNoRipple msg ((Streebog.pad msg).length / 64)))]
  iv := fun _ _ => if n = 64 then 0 else 1
  f := fun h x => Streebog.g x.1 h (matOf x.2)
  out := fun _ h => (matBytes 8 h).drop (64 - n)

def lsh {w : Nat} (F : Lsh.Family w) (n : Nat) : Iter Unit (Nat → BitVec w) Bytes Bytes where
  inputs := fun _ msg => chunks (4 * w) (Lsh.pad w msg)
  iv := Lsh.IV F (8 * n)
  f := fun T b => Lsh.CF F T (Lsh.words w b)
  out := fun _ T => Lsh.FIN T n

/-- Each call gets salt, counter and block. -/
def blake {w : Nat} (v : Blake.Variant w) (iv : Sha2.H8 w) (one : Bool) (n : Nat) :
    Iter Bytes (Nat → BitVec w) ((Bytes × Nat) × Bytes) Bytes where
  inputs := fun salt msg => numbered (2 * w) (fun i => (salt, wrap64 (Blake.counter (2 * w) msg.length i)))
    (Blake.pad (2 * w) (w / 4) one (wrap64 (8 * msg.length)) msg)
  iv := Blake.ivOf iv
  f := fun h x => Blake.compress v (fun i => (beWords w x.1.1).getD i 0) x.1.2 x.2 h
  out := fun _ h => (ofBeWords ((List.range 8).map h)).take n

/-- What BLAKE2 does to its chaining value: xor the parameter block to it, or compress a block with counter and two flags. -/
inductive Blake2Item where
  | params (b : Bytes)
  | block (t : Nat) (f0 f1 : Bool) (b : Bytes)

def blake2Step {w : Nat} (v : Blake2.Variant w) (h : Nat → BitVec w) : Blake2Item → Nat → BitVec w
  | .params b => fun i => h i ^^^ (leWords w b).getD i 0
  | .block t f0 f1 b => Blake2.F v t f0 f1 b h

/-- A node: parameter block, and blocks of the data, the last one filled up with zeros. -/
def blake2Items {w : Nat} (v : Blake2.Variant w) (p : Blake2.Params) (lastNode : Bool) (data : Bytes) : List Blake2Item :=
  let bs := 2 * w
  let k := max 1 ((data.length + bs - 1) / bs)
  let padded := data ++ List.replicate (k * bs - data.length) 0
  .params (p.bytes v) :: (List.range k).map fun i =>
    .block (min ((i + 1) * bs) data.length) (i + 1 = k) (i + 1 = k ∧ lastNode) (blockAt bs i padded)

/-- What the setters accept. -/
def BlakeOk (w : Nat) (θ : Blake2.Theta) : Prop := θ.key.length ≤ w ∧ θ.salt.length = w / 4 ∧ θ.personal.length = w / 4

def blake2 {w : Nat} (v : Blake2.Variant w) (n : Nat) : Iter Blake2.Theta (Nat → BitVec w) Blake2Item Bytes where
  inputs := fun θ msg => blake2Items v (Blake2.seqParams θ n 0) false (Blake2.keyed (2 * w) θ.key msg)
  iv := v.IV
  f := blake2Step v
  out := fun _ h => (ofLeWords ((List.range 8).map h)).take n

/-- BLAKE2X with known output length: the inputs of the root. -/
def blake2x {w : Nat} (v : Blake2.Variant w) (n : Nat) : Iter Blake2.Theta (Nat → BitVec w) Blake2Item Bytes where
  inputs := fun θ msg => blake2Items v (Blake2.seqParams θ w n) false (Blake2.keyed (2 * w) θ.key msg)
  iv := v.IV
  f := blake2Step v
  out := fun θ h => (List.range ((n + w - 1) / w)).flatMap fun i =>
    Blake2.b2 v θ n (ofLeWords ((List.range 8).map h)) i (min w (n - i * w))

/-- BLAKE2X with unknown output length: the inputs of the root. -/
def blake2xof {w : Nat} (v : Blake2.Variant w) : Iter Blake2.Theta (Nat → BitVec w) Blake2Item (Nat → Byte) where
  inputs := fun θ msg => blake2Items v (Blake2.seqParams θ w (256 ^ v.xlen - 1)) false (Blake2.keyed (2 * w) θ.key msg)
  iv := v.IV
  f := blake2Step v
  out := fun θ h j => (Blake2.b2 v θ (256 ^ v.xlen - 1) (ofLeWords ((List.range 8).map h)) (j / w) w).getD (j % w) 0

/-- Parameters of the node `i` at a depth of BLAKE2bp and BLAKE2sp. -/
def blake2pNode (w P n : Nat) (θ : Blake2.Theta) (depth i : Nat) : Blake2.Params :=
  ⟨n, θ.key.length, P, 2, 0, i, 0, depth, w, θ.salt, θ.personal⟩

/-- BLAKE2bp and BLAKE2sp: there is a chaining value for each leaf, and an input is for one of them. -/
def blake2p {w : Nat} (v : Blake2.Variant w) (P n : Nat) : Iter Blake2.Theta (Nat → Nat → BitVec w) (Nat × Blake2Item) Bytes where
  inputs := fun θ msg => (List.range P).flatMap fun i =>
    (blake2Items v (blake2pNode w P n θ 0 i) (i + 1 = P) (Blake2.keyed (2 * w) θ.key (Blake2.stripe (2 * w) P i msg))).map (i, ·)
  iv := fun _ => v.IV
  f := fun V x j => if j = x.1 then blake2Step v (V j) x.2 else V j
  out := fun θ V => (Blake2.core v (blake2pNode w P n θ 1 0) true
    ((List.range P).flatMap fun i => ofLeWords ((List.range 8).map (V i)))).take n

/-- The calls of Threefish made by UBI: tweak and block. -/
def ubi (nw : Nat) (data : Bytes) (type : Nat) : List (Nat × Bytes) :=
  let bs := 8 * nw
  let k := max 1 ((data.length + bs - 1) / bs)
  let padded := data ++ List.replicate (k * bs - data.length) 0
  (List.range k).map fun i => (Skein.tweak type (min ((i + 1) * bs) data.length) (i = 0) (i + 1 = k), blockAt bs i padded)

/-- The same for optional arguments. -/
def ubiOpt (nw : Nat) (data : Bytes) (type : Nat) : List (Nat × Bytes) := if data = [] then [] else ubi nw data type

def skeinInputs (nw bits : Nat) (θ : Skein.Theta) (msg : Bytes) : List (Nat × Bytes) :=
  ubiOpt nw θ.key 0 ++ ubi nw (Skein.config bits) 4 ++ ubiOpt nw θ.personal 8 ++ ubiOpt nw θ.nonce 20 ++ ubi nw msg 48

def skeinStep (T : Skein.Threefish) (h : Nat → BitVec 64) (x : Nat × Bytes) (j : Nat) : BitVec 64 :=
  Skein.encrypt T h (Skein.tweakWords x.1) (fun j => (leWords 64 x.2).getD j 0) j ^^^ (leWords 64 x.2).getD j 0

/-- Strings shorter than `2^64` bytes. -/
def SkeinOk (θ : Skein.Theta) (msg : Bytes) : Prop :=
  θ.key.length < 2 ^ 64 ∧ θ.personal.length < 2 ^ 64 ∧ θ.nonce.length < 2 ^ 64 ∧ msg.length < 2 ^ 64

def skein (T : Skein.Threefish) (n : Nat) : Iter Skein.Theta (Nat → BitVec 64) (Nat × Bytes) Bytes where
  inputs := skeinInputs T.nw (8 * n)
  iv := fun _ => 0
  f := skeinStep T
  out := fun _ g => ((List.range ((n + 8 * T.nw - 1) / (8 * T.nw))).flatMap (Skein.output T g)).take n

def skeinXof (T : Skein.Threefish) : Iter Skein.Theta (Nat → BitVec 64) (Nat × Bytes) (Nat → Byte) where
  inputs := skeinInputs T.nw (2 ^ 64 - 1)
  iv := fun _ => 0
  f := skeinStep T
  out := fun _ g j => (Skein.output T g (j / (8 * T.nw))).getD (j % (8 * T.nw)) 0

/-- Sponges with the Keccak permutation. -/
def keccakStep (nr : Nat) (A : Keccak.State) (b : Bytes) : Keccak.State := Keccak.keccakP nr (Keccak.xorInto A b)

def sha3 (d : Nat) : Iter Unit Keccak.State Bytes Bytes where
  inputs := fun _ msg => chunks (200 - 2 * d / 8) (Keccak.padded (200 - 2 * d / 8) [false, true] msg)
  iv := List.replicate 25 0
  f := keccakStep 24
  out := fun _ A => slice (Keccak.squeeze 24 (200 - 2 * d / 8) A) 0 (d / 8)

def shake (b : Nat) : Iter Unit Keccak.State Bytes (Nat → Byte) where
  inputs := fun _ msg => chunks (200 - 2 * b / 8) (Keccak.padded (200 - 2 * b / 8) [true, true, true, true] msg)
  iv := List.replicate 25 0
  f := keccakStep 24
  out := fun _ => Keccak.squeeze 24 (200 - 2 * b / 8)

/-- Each call gets a block; the last one, `some c`, is that of the big permutation, with the constant `c`. -/
def eschInputs (dom : BitVec 32) (msg : Bytes) : List (Option (BitVec 32) × Bytes) :=
  let n := (msg.length - 1) / 16
  let last := msg.drop (16 * n)
  ((List.range n).map fun i => (none, blockAt 16 i msg)) ++
    [if last.length < 16 then (some (1 ^^^ dom), last ++ [0x80] ++ List.replicate (15 - last.length) 0) else (some (2 ^^^ dom), last)]

def eschStep (F : Esch.Family) (B : Esch.Branches) : Option (BitVec 32) × Bytes → Esch.Branches
  | (none, b) => Esch.sparkle F.h F.slim (Esch.inject F.h B b)
  | (some c, b) => Esch.sparkle F.h (F.slim + 4) (Esch.inject F.h (Esch.addConst F.h (c <<< 24) B) b)

def esch (F : Esch.Family) (n : Nat) : Iter Unit Esch.Branches (Option (BitVec 32) × Bytes) Bytes where
  inputs := fun _ => eschInputs 0
  iv := fun _ => (0, 0)
  f := eschStep F
  out := fun _ B => slice (Esch.squeeze F B) 0 n

def eschXof (F : Esch.Family) : Iter Unit Esch.Branches (Option (BitVec 32) × Bytes) (Nat → Byte) where
  inputs := fun _ => eschInputs 4
  iv := fun _ => (0, 0)
  f := eschStep F
  out := fun _ => Esch.squeeze F

def asconHash : Iter Unit Ascon.State Bytes Bytes where
  inputs := fun _ msg => chunks 8 (Ascon.pad msg)
  iv := Ascon.start 0x0000080100cc0002
  f := fun s b => Ascon.absorbBlock b s
  out := fun _ s => slice (Ascon.squeeze s) 0 32

def asconXof : Iter Unit Ascon.State Bytes (Nat → Byte) where
  inputs := fun _ msg => chunks 8 (Ascon.pad msg)
  iv := Ascon.start 0x0000080000cc0003
  f := fun s b => Ascon.absorbBlock b s
  out := fun _ => Ascon.squeeze

def asconCxof : Iter Bytes Ascon.State Bytes (Nat → Byte) where
  inputs := fun z msg => chunks 8 (leBytes 8 (8 * z.length) ++ Ascon.pad z ++ Ascon.pad msg)
  iv := Ascon.start 0x0000080000cc0004
  f := fun s b => Ascon.absorbBlock b s
  out := fun _ => Ascon.squeeze

/-- KangarooTwelve and its relatives: the strings given to the sponges, each cut into blocks of `r` bytes. The first one is that of
the final node, the others are those of the leaves; `cv` is what is squeezed from a leaf. -/
def k12 (R r c : Nat) (C msg : Bytes) : List (List Bytes) :=
  let S := msg ++ C ++ K12.lengthEncode C.length
  if S.length ≤ 8192 then [chunks r (Keccak.padD r 0x07 S)]
  else
    let leaves := (List.range (K12.count S - 1)).map fun i => chunks r (Keccak.padD r 0x0b (K12.piece (i + 1) S))
    let cvs := leaves.map fun l => slice (Keccak.squeeze R r (l.foldl (keccakStep R) (List.replicate 25 0))) 0 c
    chunks r (Keccak.padD r 0x06
      (K12.piece 0 S ++ [3, 0, 0, 0, 0, 0, 0, 0] ++ cvs.flatten ++ K12.lengthEncode (K12.count S - 1) ++ [0xff, 0xff])) :: leaves

/-- What is squeezed after that. -/
def k12Stream (R r c : Nat) (C msg : Bytes) : Nat → Byte :=
  Keccak.squeeze R r (((k12 R r c C msg).headD []).foldl (keccakStep R) (List.replicate 25 0))

end Inputs
end Digestpp.Spec
