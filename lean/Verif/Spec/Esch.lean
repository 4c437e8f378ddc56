import Verif.Spec.Words
import Verif.Spec.Api
import Verif.Spec.Md

/-! Esch256, Esch384, and the extendable output functions XOEsch256, XOEsch384 (Beierle, Biryukov, Cardoso dos Santos, Großschädl,
Perrin, Udovenko, Velichkov, Wang: "Schwaemm and Esch: Lightweight Authenticated Encryption and Hashing using the Sparkle Permutation
Family", version 1.2). A state of `2 * h` branches is a function from branch numbers to pairs `(x, y)` of words. -/

namespace Digestpp.Spec.Esch

abbrev Branches := Nat → BitVec 32 × BitVec 32

/-- The round constants. -/
def c (i : Nat) : BitVec 32 :=
  [0xb7e15162, 0xbf715880, 0x38b4da56, 0x324e7738, 0xbb1185eb, 0x4f7c7b57, 0xcfbfa1c8, 0xc2b3293d].getD i 0

/-- The ARX-box Alzette `A_c`. -/
def alzette (c : BitVec 32) (b : BitVec 32 × BitVec 32) : BitVec 32 × BitVec 32 :=
  let (x, y) := b
  let x := x + y.rotateRight 31
  let y := y ^^^ x.rotateRight 24
  let x := x ^^^ c
  let x := x + y.rotateRight 17
  let y := y ^^^ x.rotateRight 17
  let x := x ^^^ c
  let x := x + y
  let y := y ^^^ x.rotateRight 31
  let x := x ^^^ c
  let x := x + y.rotateRight 24
  let y := y ^^^ x.rotateRight 16
  let x := x ^^^ c
  (x, y)

/-- `ℓ(x) = (x <<< 16) ⊕ (x & 0xffff)`. -/
def ell (x : BitVec 32) : BitVec 32 := x.rotateLeft 16 ^^^ (x &&& 0xffff)

/-- The linear Feistel function `M_h`: `x_i` becomes `x_i ⊕ ℓ(y_0 ⊕ … ⊕ y_(h-1))`, `y_i` becomes `y_i ⊕ ℓ(x_0 ⊕ … ⊕ x_(h-1))`. -/
def feistel (h : Nat) (B : Branches) : Branches :=
  let tx := ell ((List.range h).foldl (fun a i => a ^^^ (B i).1) 0)
  let ty := ell ((List.range h).foldl (fun a i => a ^^^ (B i).2) 0)
  fun i => ((B i).1 ^^^ ty, (B i).2 ^^^ tx)

/-- The linear diffusion layer: the left half is run through `M_h` and added to the right half, whose branches are then rotated by
one place; the halves change places. -/
def linear (h : Nat) (B : Branches) : Branches :=
  let R : Branches := fun i => ((B (i + h)).1 ^^^ (feistel h B i).1, (B (i + h)).2 ^^^ (feistel h B i).2)
  fun i => if i < h then R ((i + 1) % h) else B (i - h)

/-- Step `s` of the permutation. -/
def step (h : Nat) (B : Branches) (s : Nat) : Branches :=
  let B := fun i => if i = 0 then ((B 0).1, (B 0).2 ^^^ c (s % 8)) else if i = 1 then ((B 1).1, (B 1).2 ^^^ BitVec.ofNat 32 s) else B i
  linear h fun i => alzette (c i) (B i)

/-- `Sparkle` with `ns` steps. -/
def sparkle (h ns : Nat) (B : Branches) : Branches := (List.range ns).foldl (step h) B

/-- The two branches of a 16-byte block. -/
def blockBranches (b : Bytes) : Branches := fun i =>
  if i < 2 then ((leWords 32 b).getD (2 * i) 0, (leWords 32 b).getD (2 * i + 1) 0) else (0, 0)

/-- Adding a block, expanded by `M_h`, to the left half. -/
def inject (h : Nat) (B : Branches) (b : Bytes) : Branches := fun i =>
  if i < h then ((B i).1 ^^^ (feistel h (blockBranches b) i).1, (B i).2 ^^^ (feistel h (blockBranches b) i).2) else B i

/-- Adding a constant to the last branch of the left half. -/
def addConst (h : Nat) (v : BitVec 32) (B : Branches) : Branches := fun i =>
  if i = h - 1 then ((B i).1, (B i).2 ^^^ v) else B i

/-- The two sizes: half the number of branches and the number of steps of the slim permutation; the big one has 4 more. -/
structure Family where
  h : Nat
  slim : Nat

/-- `Sparkle384`, with 7 or 11 steps. -/
def f256 : Family := ⟨3, 7⟩
/-- `Sparkle512`, with 8 or 12 steps. -/
def f384 : Family := ⟨4, 8⟩

/-- The state after absorbing a message. `dom` is the domain separation of the extendable output functions. -/
def absorb (F : Family) (dom : BitVec 32) (msg : Bytes) : Branches :=
  let n := (msg.length - 1) / 16
  let B := foldBlocks 16 (fun _ b B => sparkle F.h F.slim (inject F.h B b)) msg n (fun _ => (0, 0))
  let last := msg.drop (16 * n)
  let padded := if last.length < 16 then last ++ [0x80] ++ List.replicate (15 - last.length) 0 else last
  let const : BitVec 32 := (if last.length < 16 then 1 else 2) ^^^ dom
  sparkle F.h (F.slim + 4) (inject F.h (addConst F.h (const <<< 24) B) padded)

/-- The 16 bytes of output of a state. -/
def outBytes (B : Branches) : Bytes := ofLeWords [(B 0).1, (B 0).2, (B 1).1, (B 1).2]

/-- `f` repeated. -/
def iter {α : Type} (f : α → α) : Nat → α → α
  | 0, a => a
  | n + 1, a => f (iter f n a)

/-- Byte `n` of the output. -/
def squeeze (F : Family) (B : Branches) (n : Nat) : Byte :=
  (outBytes (iter (sparkle F.h F.slim) (n / 16) B)).getD (n % 16) 0

/-- The digest of `n` bytes. -/
def hash (F : Family) (n : Nat) (msg : Bytes) : Bytes := slice (squeeze F (absorb F 0 msg)) 0 n

/-- Esch256 is `esch f256 32`, Esch384 is `esch f384 48`. -/
def esch (F : Family) (n : Nat) : HashFn Empty Unit := plainFn n (hash F n)

/-- XOEsch256, XOEsch384. -/
def eschXof (F : Family) : XofFn Empty Unit where
  dflt := ()
  set := nofun
  stream := fun _ msg => squeeze F (absorb F 4 msg)

end Digestpp.Spec.Esch
