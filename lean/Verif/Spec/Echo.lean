import Verif.Spec.Md
import Verif.Spec.Gf
import Verif.Spec.Api

/-! ECHO ("SHA-3 proposal: ECHO", version 2.0, sections 2 and 3). Words of 128 bits are AES states: matrices of four rows and
columns. -/

namespace Digestpp.Spec.Echo

/-- FIPS 197, 3.4: bytes to AES state, column by column. -/
def state (b : Bytes) : Mat := fun i j => b.getD (4 * j + i) 0

/-- AES state to bytes. -/
def stateBytes (A : Mat) : Bytes := (List.range 16).map fun n => A (n % 4) (n / 4)

/-- FIPS 197, 5.1.1. -/
def subBytes (A : Mat) : Mat := fun i j => aesSbox (A i j)

/-- FIPS 197, 5.1.2: row `i` is rotated left by `i`. -/
def shiftRows (A : Mat) : Mat := fun i j => A i ((j + i) % 4)

/-- FIPS 197, 5.1.3: the matrix `circ(02, 03, 01, 01)`. -/
def mc (i k : Nat) : Byte := ([0x02, 0x03, 0x01, 0x01] : List Byte).getD ((k + 4 - i) % 4) 0

/-- FIPS 197, 5.1.3: MixColumns. -/
def mixColumns (A : Mat) : Mat := fun i j => xorSum 4 fun k => aesMul (A k j) (mc i k)

/-- FIPS 197, 5.1: a round with round key `K`. -/
def aesRound (K A : Mat) : Mat := matXor (mixColumns (shiftRows (subBytes A))) K

/-- The sixteen words of the state of the compression function; word `i + 4j` is in row `i` and column `j`. -/
abbrev State := Nat → Mat

/-- BIG.SubWords: two AES rounds; the first key is a counter, incremented from word to word, the second the salt. Here and below `wrap`
is what becomes of a number in the counter: `id` in ECHO, `wrap64` if the counter has only 64 bits. -/
def bigSubWords (wrap : Nat → Nat) (salt : Mat) (κ : Nat) (S : State) : State := fun w =>
  aesRound salt (aesRound (state (leBytes 16 (wrap (κ + w)))) (S w))

/-- BIG.ShiftRows: row `i` is rotated left by `i`. -/
def bigShiftRows (S : State) : State := fun w => S (w % 4 + 4 * ((w / 4 + w % 4) % 4))

/-- BIG.MixColumns: MixColumns on the 16 times 4 columns formed by the corresponding bytes of the four words of a column. -/
def bigMixColumns (S : State) : State := fun w i j => xorSum 4 fun k => aesMul (S (4 * (w / 4) + k) i j) (mc (w % 4) k)

/-- BIG.Round number `r`; `C` is the initial value of the counter. -/
def bigRound (wrap : Nat → Nat) (salt : Mat) (C : Nat) (S : State) (r : Nat) : State :=
  bigMixColumns (bigShiftRows (bigSubWords wrap salt (C + 16 * r) S))

/-- The state at the beginning: `cw` words of chaining value, then the words of the message block. -/
def load (cw : Nat) (V : State) (block : Bytes) : State := fun w =>
  if w < cw then V w else state (block.drop (16 * (w - cw)))

/-- COMPRESS: the rounds and BIG.Final, which adds up the words of the state before and after the rounds in `16 / cw` groups. -/
def compress (wrap : Nat → Nat) (cw : Nat) (salt : Mat) (C : Nat) (block : Bytes) (V : State) : State :=
  let S := load cw V block
  let T := (List.range (if cw = 8 then 10 else 8)).foldl (bigRound wrap salt C) S
  fun t i j => xorSum (16 / cw) (fun g => S (t + cw * g) i j) ^^^ xorSum (16 / cw) (fun g => T (t + cw * g) i j)

/-- Padding: a one bit, zeros, the digest size in 16 bits, the message length in 128 bits, both little-endian. -/
def pad (wrap : Nat → Nat) (bs n : Nat) (msg : Bytes) : Bytes := mdPad bs (leBytes 2 (8 * n) ++ leBytes 16 (wrap (8 * msg.length))) msg

/-- The counter of block `i`: the number of message bits in blocks `0` … `i`, or zero if block `i` has none. -/
def counter (bs len i : Nat) : Nat := if i * bs < len then 8 * min len ((i + 1) * bs) else 0

/-- ECHO with `n` bytes of output and `cw` words of chaining value: the initial value consists of words encoding the digest size. -/
def hashWith (wrap : Nat → Nat) (cw n : Nat) (salt msg : Bytes) : Bytes :=
  let bs := 16 * (16 - cw)
  let p := pad wrap bs n msg
  let V := foldBlocks bs (fun i b V => compress wrap cw (state salt) (counter bs msg.length i) b V) p (p.length / bs)
    (fun _ => state (leBytes 16 (8 * n)))
  ((List.range cw).flatMap fun t => stateBytes (V t)).take n

/-- ECHO-`8n`, for `n` from 1 to 64, with a salt of 16 bytes; setting an empty salt removes it. -/
def echoWith (wrap : Nat → Nat) (n : Nat) : HashFn SaltParam Bytes where
  size := n
  dflt := List.replicate 16 0
  set := fun (.salt x) _ => if x.length = 16 then some x else if x.length = 0 then some (List.replicate 16 0) else none
  digest := hashWith wrap (if n ≤ 32 then 4 else 8) n

/-- ECHO-`8n`. -/
def echo : Nat → HashFn SaltParam Bytes := echoWith id

end Digestpp.Spec.Echo
