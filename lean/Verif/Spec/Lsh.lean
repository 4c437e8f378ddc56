import Verif.Spec.Words
import Verif.Spec.Md

/-! LSH (KS X 3262; Kim, Lee, Hong, Roh, Ryu, Kwon, Jung: "LSH: A New Fast Secure Hash Function Family", ICISC 2014), for
digests of a whole number of bytes. An array of words is a function from its indices. -/

namespace Digestpp.Spec.Lsh

/-- What distinguishes LSH-256 (32-bit words) from LSH-512 (64-bit words): the number of steps, the rotation amounts of the even
and of the odd steps, and the first step constant. -/
structure Family (w : Nat) where
  Ns : Nat
  αeven : Nat
  βeven : Nat
  αodd : Nat
  βodd : Nat
  γ : Nat → Nat
  SC0 : Nat → BitVec w

/-- LSH-256. -/
def lsh256 : Family 32 where
  Ns := 26
  αeven := 29
  βeven := 1
  αodd := 5
  βodd := 17
  γ := fun l => [0, 8, 16, 24, 24, 16, 8, 0].getD l 0
  SC0 := fun l => [0x917caf90, 0x6c1b10a2, 0x6f352943, 0xcf778243, 0x2ceb7472, 0x29e96ff2, 0x8a9ba428, 0x2eeb2642].getD l 0

/-- LSH-512. -/
def lsh512 : Family 64 where
  Ns := 28
  αeven := 23
  βeven := 59
  αodd := 7
  βodd := 3
  γ := fun l => [0, 16, 32, 48, 8, 24, 40, 56].getD l 0
  SC0 := fun l => [0x97884283c938982a, 0xba1fca93533e2355, 0xc519a2e87aeb1c03, 0x9a0fc95462af17b1, 0xfc3dda8ab019a82b,
    0x02825d079a895407, 0x79f2d0a7ee06a6f7, 0xd76d15eed9fdf5fe].getD l 0

/-- The permutation τ of the message expansion. -/
def τ (l : Nat) : Nat := [3, 2, 0, 1, 7, 4, 5, 6, 11, 10, 8, 9, 15, 12, 13, 14].getD l 0

/-- The word permutation σ. -/
def σ (l : Nat) : Nat := [6, 4, 5, 7, 12, 15, 14, 13, 2, 0, 1, 3, 8, 11, 10, 9].getD l 0

variable {w : Nat}

/-- The expanded message blocks `M_j` of the 32 words `m`. -/
def expand (m : Nat → BitVec w) : Nat → Nat → BitVec w
  | 0, l => m l
  | 1, l => m (l + 16)
  | j + 2, l => expand m (j + 1) l + expand m j (τ l)

/-- The step constants: `SC_j[l] = SC_(j-1)[l] + (SC_(j-1)[l] <<< 8)`. -/
def SC (F : Family w) : Nat → Nat → BitVec w
  | 0, l => F.SC0 l
  | j + 1, l => SC F j l + (SC F j l).rotateLeft 8

/-- `MsgAdd`. -/
def msgAdd (T M : Nat → BitVec w) : Nat → BitVec w := fun l => T l ^^^ M l

/-- `Mix_(j,l)`: the two words it makes of `T[l]` and `T[l+8]`. -/
def mixWords (F : Family w) (j l : Nat) (x y : BitVec w) : BitVec w × BitVec w :=
  let α := if j % 2 = 0 then F.αeven else F.αodd
  let β := if j % 2 = 0 then F.βeven else F.βodd
  let x := x + y
  let x := x.rotateLeft α
  let x := x ^^^ SC F j l
  let y := x + y
  let y := y.rotateLeft β
  let x := x + y
  let y := y.rotateLeft (F.γ l)
  (x, y)

/-- `Mix_j`. -/
def mix (F : Family w) (j : Nat) (T : Nat → BitVec w) : Nat → BitVec w := fun l =>
  if l < 8 then (mixWords F j l (T l) (T (l + 8))).1 else (mixWords F j (l - 8) (T (l - 8)) (T l)).2

/-- `WordPerm`. -/
def wordPerm (X : Nat → BitVec w) : Nat → BitVec w := fun l => X (σ l)

/-- `Step_j`. -/
def step (F : Family w) (M : Nat → Nat → BitVec w) (T : Nat → BitVec w) (j : Nat) : Nat → BitVec w :=
  wordPerm (mix F j (msgAdd T (M j)))

/-- The compression function. -/
def CF (F : Family w) (T m : Nat → BitVec w) : Nat → BitVec w :=
  msgAdd ((List.range F.Ns).foldl (step F (expand m)) T) (expand m F.Ns)

/-- The initial value for `n`-bit digests: `CF((w, n, 0, …, 0), (0, …, 0))`. -/
def IV (F : Family w) (n : Nat) : Nat → BitVec w :=
  CF F (fun l => if l = 0 then BitVec.ofNat w w else if l = 1 then BitVec.ofNat w n else 0) (fun _ => 0)

/-- One-zeros padding to a multiple of the block, `32 * w` bits. -/
def pad (w : Nat) (msg : Bytes) : Bytes :=
  msg ++ [0x80] ++ List.replicate (toMultiple (4 * w) (msg.length + 1)) 0

/-- The words of a block. -/
def words (w : Nat) (b : Bytes) : Nat → BitVec w := fun l => (leWords w b).getD l 0

/-- The finalization function: the first `n` bytes of the folded chaining variable. -/
def FIN (T : Nat → BitVec w) (n : Nat) : Bytes :=
  (ofLeWords ((List.range 8).map fun l => T l ^^^ T (l + 8))).take n

/-- The digest of `n` bytes. -/
def hash (F : Family w) (n : Nat) (msg : Bytes) : Bytes :=
  FIN ((chunks (4 * w) (pad w msg)).foldl (fun T b => CF F T (words w b)) (IV F (8 * n))) n

/-- LSH with digests of `n` bytes. -/
def lsh (F : Family w) (n : Nat) : HashFn Empty Unit := plainFn n (hash F n)

end Digestpp.Spec.Lsh
