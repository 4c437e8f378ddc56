import Verif.Spec.Md
import Verif.Spec.Sha2
import Verif.Spec.BlakeRound

/-! BLAKE2b and BLAKE2s from RFC 7693; the parameter block, BLAKE2bp and BLAKE2sp from "BLAKE2: simpler, smaller, fast as MD5"
(2013.01.29); BLAKE2Xb and BLAKE2Xs from "BLAKE2X" (2016). -/

namespace Digestpp.Spec.Blake2
open Blake (Col round perm)

/-- RFC 7693 section 2.1: rotation distances and number of rounds; section 2.6: the initialization vector, that of SHA-2. -/
structure Variant (w : Nat) where
  r1 : Nat
  r2 : Nat
  r3 : Nat
  r4 : Nat
  rounds : Nat
  iv : Sha2.H8 w
  /-- Length in bytes of the field for the output length of BLAKE2X. -/
  xlen : Nat

def v2s : Variant 32 := ⟨16, 12, 8, 7, 10, Sha2.iv256, 2⟩
def v2b : Variant 64 := ⟨32, 24, 16, 63, 12, Sha2.iv512, 4⟩

variable {w : Nat}

/-- The words of the initialization vector. -/
def Variant.IV (v : Variant w) (i : Nat) : BitVec w :=
  [v.iv.a, v.iv.b, v.iv.c, v.iv.d, v.iv.e, v.iv.f, v.iv.g, v.iv.h].getD i 0

/-- RFC 7693 section 3.1: the mixing function, applied to message words `s[2 i]` and `s[2 i + 1]`. -/
def G (v : Variant w) (m : List (BitVec w)) (r i : Nat) (q : Col w) : Col w :=
  let x := m.getD (perm r (2 * i)) 0
  let y := m.getD (perm r (2 * i + 1)) 0
  let a := q.a + q.b + x
  let d := (q.d ^^^ a).rotateRight v.r1
  let c := q.c + d
  let b := (q.b ^^^ c).rotateRight v.r2
  let a := a + b + y
  let d := (d ^^^ a).rotateRight v.r3
  let c := c + d
  let b := (b ^^^ c).rotateRight v.r4
  ⟨a, b, c, d⟩

/-- RFC 7693 section 3.2 and section 2.4 of the paper: the compression function. `t` is the number of bytes so far, `f0` tells the
last block, `f1` the last block of the last node of its depth. -/
def F (v : Variant w) (t : Nat) (f0 f1 : Bool) (block : Bytes) (h : Nat → BitVec w) : Nat → BitVec w :=
  let init := fun k =>
    if k < 8 then h k
    else v.IV (k - 8) ^^^
      (if k = 12 then BitVec.ofNat w t else if k = 13 then BitVec.ofNat w (t / 2 ^ w)
       else if k = 14 ∧ f0 then BitVec.allOnes w else if k = 15 ∧ f1 then BitVec.allOnes w else 0)
  let x := (List.range v.rounds).foldl (fun x r => round (G v (leWords w block) r) x) init
  fun i => h i ^^^ x i ^^^ x (i + 8)

/-- The fields of the parameter block: section 2.5 of the paper, as amended by section 2 of BLAKE2X. -/
structure Params where
  digestLen : Nat
  keyLen : Nat
  fanout : Nat
  depth : Nat
  leafLen : Nat
  nodeOffset : Nat
  xofLen : Nat
  nodeDepth : Nat
  innerLen : Nat
  salt : Bytes
  personal : Bytes

/-- The parameter block. Salt and personalization have `w / 4` bytes each. -/
def Params.bytes (v : Variant w) (p : Params) : Bytes :=
  let top := leBytes 1 p.digestLen ++ leBytes 1 p.keyLen ++ leBytes 1 p.fanout ++ leBytes 1 p.depth ++ leBytes 4 p.leafLen ++
    leBytes 4 p.nodeOffset ++ leBytes v.xlen p.xofLen ++ leBytes 1 p.nodeDepth ++ leBytes 1 p.innerLen
  top ++ List.replicate (w / 2 - top.length) 0 ++ p.salt ++ p.personal

/-- Section 2.4: the data are split into blocks, the last one filled up with zeros (empty data: one block of zeros); the counter
gives the number of data bytes up to the end of each block. The result is the whole chaining value. -/
def core (v : Variant w) (p : Params) (lastNode : Bool) (data : Bytes) : Bytes :=
  let bs := 2 * w
  let k := max 1 ((data.length + bs - 1) / bs)
  let padded := data ++ List.replicate (k * bs - data.length) 0
  let h0 := fun i => v.IV i ^^^ (leWords w (p.bytes v)).getD i 0
  let h := foldBlocks bs
    (fun i b h => F v (min ((i + 1) * bs) data.length) (i + 1 = k) (i + 1 = k ∧ lastNode) b h) padded k h0
  ofLeWords ((List.range 8).map h)

/-- Section 2.9: a key is a first block, filled up with zeros. -/
def keyed (bs : Nat) (key msg : Bytes) : Bytes :=
  if key = [] then msg else key ++ List.replicate (bs - key.length) 0 ++ msg

/-- What the user of a BLAKE2 function object sets. -/
structure Theta where
  key : Bytes
  salt : Bytes
  personal : Bytes

/-- Nothing set. -/
def Theta.none (w : Nat) : Theta := ⟨[], List.replicate (w / 4) 0, List.replicate (w / 4) 0⟩

/-- Keys have at most `w` bytes, salt and personalization `w / 4`. The paper has no empty salt or personalization; `keep` tells
whether setting one has no effect or gives the default value. -/
def set (w : Nat) (keep : Bool) (p : Blake2Param) (θ : Theta) : Option Theta :=
  match p with
  | .key x => if x.length ≤ w then some { θ with key := x } else .none
  | .salt x =>
    if x.length = w / 4 then some { θ with salt := x }
    else if x.length = 0 then some (if keep then θ else { θ with salt := List.replicate (w / 4) 0 }) else .none
  | .personalization x =>
    if x.length = w / 4 then some { θ with personal := x }
    else if x.length = 0 then some (if keep then θ else { θ with personal := List.replicate (w / 4) 0 }) else .none

/-- Section 2.5: parameters of sequential hashing. -/
def seqParams (θ : Theta) (digestLen xofLen : Nat) : Params :=
  ⟨digestLen, θ.key.length, 1, 1, 0, 0, xofLen, 0, 0, θ.salt, θ.personal⟩

/-- BLAKE2b, BLAKE2s with digests of `n` bytes. -/
def fn (v : Variant w) (keep : Bool) (n : Nat) : HashFn Blake2Param Theta where
  size := n
  dflt := .none w
  set := set w keep
  digest := fun θ msg => (core v (seqParams θ n 0) false (keyed (2 * w) θ.key msg)).take n

/-- BLAKE2X section 2: the root hash `H0`. -/
def root (v : Variant w) (θ : Theta) (xofLen : Nat) (msg : Bytes) : Bytes :=
  core v (seqParams θ w xofLen) false (keyed (2 * w) θ.key msg)

/-- BLAKE2X section 2: the output blocks, `B2(i, digestLen, H0)`. -/
def b2 (v : Variant w) (θ : Theta) (xofLen : Nat) (h0 : Bytes) (i digestLen : Nat) : Bytes :=
  (core v ⟨digestLen, 0, 0, 0, w, i, xofLen, 0, w, θ.salt, θ.personal⟩ false h0).take digestLen

/-- BLAKE2Xb, BLAKE2Xs with known output length `n`. -/
def xfn (v : Variant w) (keep : Bool) (n : Nat) : HashFn Blake2Param Theta where
  size := n
  dflt := .none w
  set := set w keep
  digest := fun θ msg =>
    let h0 := root v θ n msg
    (List.range ((n + w - 1) / w)).flatMap fun i => b2 v θ n h0 i (min w (n - i * w))

/-- BLAKE2Xb, BLAKE2Xs with unknown output length: the length field has its largest value, all output blocks are full. -/
def xof (v : Variant w) (keep : Bool) : XofFn Blake2Param Theta where
  dflt := .none w
  set := set w keep
  stream := fun θ msg j =>
    let n := 256 ^ v.xlen - 1
    (b2 v θ n (root v θ n msg) (j / w) w).getD (j % w) 0

/-- Section 2.10: leaf `i` of `P` gets the message blocks with numbers congruent to `i` modulo `P`. -/
def stripe (bs P i : Nat) (msg : Bytes) : Bytes :=
  ((List.range ((msg.length + bs - 1) / bs)).filter (· % P = i)).flatMap fun j => blockAt bs j msg

/-- Section 2.10: BLAKE2bp (`P = 4`) and BLAKE2sp (`P = 8`) with digests of `n` bytes. -/
def pfn (v : Variant w) (P : Nat) (keep : Bool) (n : Nat) : HashFn Blake2Param Theta where
  size := n
  dflt := .none w
  set := set w keep
  digest := fun θ msg =>
    let node := fun depth i => (⟨n, θ.key.length, P, 2, 0, i, 0, depth, w, θ.salt, θ.personal⟩ : Params)
    let leaf := fun i => core v (node 0 i) (i + 1 = P) (keyed (2 * w) θ.key (stripe (2 * w) P i msg))
    (core v (node 1 0) true ((List.range P).flatMap leaf)).take n

end Digestpp.Spec.Blake2
