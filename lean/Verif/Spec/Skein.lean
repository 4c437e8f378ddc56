import Verif.Spec.Api
import Verif.Spec.Words
import Verif.Spec.Blocks

/-! Skein from "The Skein Hash Function Family", version 1.3 (2010). -/

namespace Digestpp.Spec.Skein

/-- Section 3.3: Threefish. Number of words, number of rounds, rotation constants (Table 4) and word permutation (Table 3). -/
structure Threefish where
  nw : Nat
  rounds : Nat
  rot : List (List Nat)
  perm : List Nat

def threefish256 : Threefish where
  nw := 4
  rounds := 72
  rot := [[14, 16], [52, 57], [23, 40], [5, 37], [25, 33], [46, 12], [58, 22], [32, 32]]
  perm := [0, 3, 2, 1]

def threefish512 : Threefish where
  nw := 8
  rounds := 72
  rot := [[46, 36, 19, 37], [33, 27, 14, 42], [17, 49, 36, 39], [44, 9, 54, 56],
          [39, 30, 34, 24], [13, 50, 10, 17], [25, 29, 39, 43], [8, 35, 56, 22]]
  perm := [2, 1, 4, 7, 6, 5, 0, 3]

def threefish1024 : Threefish where
  nw := 16
  rounds := 80
  rot := [[24, 13, 8, 47, 8, 17, 22, 37], [38, 19, 10, 55, 49, 18, 23, 52], [33, 4, 51, 13, 34, 41, 59, 17], [5, 20, 48, 41, 47, 28, 16, 25],
          [41, 9, 37, 31, 12, 47, 44, 30], [16, 34, 56, 51, 4, 53, 42, 41], [31, 44, 47, 46, 19, 42, 44, 25], [9, 48, 35, 52, 23, 31, 37, 20]]
  perm := [0, 9, 2, 13, 6, 11, 4, 15, 10, 7, 12, 3, 14, 5, 8, 1]

/-- Section 3.3.1: MIX, first and second word. -/
def mix0 (x0 x1 : BitVec 64) : BitVec 64 := x0 + x1
def mix1 (r : Nat) (x0 x1 : BitVec 64) : BitVec 64 := x1.rotateLeft r ^^^ (x0 + x1)

variable (T : Threefish)

/-- Section 3.3.2: the key words, extended. -/
def key (k : Nat → BitVec 64) (i : Nat) : BitVec 64 :=
  if i = T.nw then (List.range T.nw).foldl (fun x i => x ^^^ k i) 0x1BD11BDAA9FC1A22 else k i

/-- Section 3.3.2: word `i` of subkey `s`. -/
def subkey (k : Nat → BitVec 64) (t : Nat → BitVec 64) (s i : Nat) : BitVec 64 :=
  key T k ((s + i) % (T.nw + 1)) +
    (if i = T.nw - 3 then t (s % 3)
     else if i = T.nw - 2 then t ((s + 1) % 3)
     else if i = T.nw - 1 then BitVec.ofNat 64 s
     else 0)

/-- Section 3.3: one round, without the addition of a subkey. -/
def mixRound (d : Nat) (e : Nat → BitVec 64) (i : Nat) : BitVec 64 :=
  let f := fun i =>
    if i % 2 = 0 then mix0 (e i) (e (i + 1))
    else mix1 ((T.rot.getD (d % 8) []).getD (i / 2) 0) (e (i - 1)) (e i)
  f (T.perm.getD i 0)

/-- Section 3.3: one round. -/
def round (k t : Nat → BitVec 64) (v : Nat → BitVec 64) (d : Nat) : Nat → BitVec 64 :=
  mixRound T d fun i => if d % 4 = 0 then v i + subkey T k t (d / 4) i else v i

/-- Section 3.3: encryption of `p` with key `k` and tweak words `t`. -/
def encrypt (k t p : Nat → BitVec 64) (i : Nat) : BitVec 64 :=
  (List.range T.rounds).foldl (round T k t) p i + subkey T k t (T.rounds / 4) i

/-- Section 3.4, Table 5: the tweak as a number: position in bits 0-95, type in bits 120-125, first and final in bits 126 and 127. -/
def tweak (type position : Nat) (first final : Bool) : Nat :=
  position + type * 2 ^ 120 + (if first then 2 ^ 126 else 0) + (if final then 2 ^ 127 else 0)

/-- Section 3.3.2: the tweak words, and their xor. -/
def tweakWords (x : Nat) (i : Nat) : BitVec 64 :=
  let t0 := BitVec.ofNat 64 x
  let t1 := BitVec.ofNat 64 (x / 2 ^ 64)
  if i = 0 then t0 else if i = 1 then t1 else t0 ^^^ t1

/-- Section 3.4: UBI on whole bytes. The data are split into blocks, the last one filled up with zeros (empty data: one block of
zeros). -/
def ubi (g : Nat → BitVec 64) (data : Bytes) (type : Nat) : Nat → BitVec 64 :=
  let bs := 8 * T.nw
  let k := max 1 ((data.length + bs - 1) / bs)
  let padded := data ++ List.replicate (k * bs - data.length) 0
  foldBlocks bs (fun i b h =>
    let x := tweak type (min ((i + 1) * bs) data.length) (i = 0) (i + 1 = k)
    let m := fun j => (leWords 64 b).getD j 0
    fun j => encrypt T h (tweakWords x) m j ^^^ m j) padded k g

/-- Section 3.5.1, Table 7: the configuration string for an output of `bits` bits without tree hashing. -/
def config (bits : Nat) : Bytes :=
  [0x53, 0x48, 0x41, 0x33, 1, 0, 0, 0] ++ leBytes 8 bits ++ List.replicate 16 0

/-- Optional arguments; an empty one is absent. -/
structure Theta where
  key : Bytes
  personal : Bytes
  nonce : Bytes

/-- Section 3.5.2: an optional argument. -/
def opt (g : Nat → BitVec 64) (data : Bytes) (type : Nat) : Nat → BitVec 64 :=
  if data = [] then g else ubi T g data type

/-- Sections 3.5.2, 3.5.4: the chaining value before the output function. Types (Table 6): key 0, configuration 4, personalization 8,
nonce 20, message 48. -/
def chain (bits : Nat) (θ : Theta) (msg : Bytes) : Nat → BitVec 64 :=
  let k := opt T (fun _ => 0) θ.key 0
  let g := ubi T k (config bits) 4
  let g := opt T g θ.personal 8
  let g := opt T g θ.nonce 20
  ubi T g msg 48

/-- Section 3.5.3: block `i` of the output. Type 63. -/
def output (g : Nat → BitVec 64) (i : Nat) : Bytes :=
  ofLeWords ((List.range T.nw).map (ubi T g (leBytes 8 i) 63))

/-- The setters. -/
def set (p : SkeinParam) (θ : Theta) : Option Theta :=
  match p with
  | .personalization v => some { θ with personal := v }
  | .nonce v => some { θ with nonce := v }
  | .key v => some { θ with key := v }

/-- Skein with an output of `n` bytes. -/
def fn (n : Nat) : HashFn SkeinParam Theta where
  size := n
  dflt := ⟨[], [], []⟩
  set := set
  digest := fun θ msg =>
    let g := chain T (8 * n) θ msg
    ((List.range ((n + 8 * T.nw - 1) / (8 * T.nw))).flatMap (output T g)).take n

/-- Skein with unknown output length: the length field is `2^64 - 1` (section 4.11). -/
def xof : XofFn SkeinParam Theta where
  dflt := ⟨[], [], []⟩
  set := set
  stream := fun θ msg j => (output T (chain T (2 ^ 64 - 1) θ msg) (j / (8 * T.nw))).getD (j % (8 * T.nw)) 0

end Digestpp.Spec.Skein
