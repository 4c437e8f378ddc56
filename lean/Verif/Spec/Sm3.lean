import Verif.Spec.Md

/-! SM3, from GB/T 32905-2016 (draft-sca-cfrg-sm3). -/

namespace Digestpp.Spec.Sm3

abbrev W := BitVec 32

/-- Section 4.2. -/
def T (j : Nat) : W := if j < 16 then 0x79cc4519 else 0x7a879d8a

/-- Section 4.3. -/
def FF (j : Nat) (x y z : W) : W := if j < 16 then x ^^^ y ^^^ z else (x &&& y) ||| (x &&& z) ||| (y &&& z)
def GG (j : Nat) (x y z : W) : W := if j < 16 then x ^^^ y ^^^ z else (x &&& y) ||| (~~~x &&& z)

/-- Section 4.4. -/
def P0 (x : W) : W := x ^^^ x.rotateLeft 9 ^^^ x.rotateLeft 17
def P1 (x : W) : W := x ^^^ x.rotateLeft 15 ^^^ x.rotateLeft 23

/-- Section 5.3.2: message expansion, `W_j`. -/
def sched (M : List W) (j : Nat) : W :=
  if j < 16 then M.getD j 0
  else P1 (sched M (j - 16) ^^^ sched M (j - 9) ^^^ (sched M (j - 3)).rotateLeft 15) ^^^
    (sched M (j - 13)).rotateLeft 7 ^^^ sched M (j - 6)

/-- `W'_j`. -/
def sched' (M : List W) (j : Nat) : W := sched M j ^^^ sched M (j + 4)

/-- Eight words. -/
structure H8 where
  a : W
  b : W
  c : W
  d : W
  e : W
  f : W
  g : W
  h : W

/-- Section 5.3.3: round `j`. Rotation counts are modulo 32. -/
def round (M : List W) (v : H8) (j : Nat) : H8 :=
  let ss1 := (v.a.rotateLeft 12 + v.e + (T j).rotateLeft (j % 32)).rotateLeft 7
  let ss2 := ss1 ^^^ v.a.rotateLeft 12
  let tt1 := FF j v.a v.b v.c + v.d + ss2 + sched' M j
  let tt2 := GG j v.e v.f v.g + v.h + ss1 + sched M j
  ⟨tt1, v.a, v.b.rotateLeft 9, v.c, P0 tt2, v.e, v.f.rotateLeft 19, v.g⟩

/-- Section 5.3.3. -/
def compress (v : H8) (block : Bytes) : H8 :=
  let r := (List.range 64).foldl (round (beWords 32 block)) v
  ⟨r.a ^^^ v.a, r.b ^^^ v.b, r.c ^^^ v.c, r.d ^^^ v.d, r.e ^^^ v.e, r.f ^^^ v.f, r.g ^^^ v.g, r.h ^^^ v.h⟩

/-- SM3 of a message of fewer than `2^64` bits. -/
def hash (msg : Bytes) : Bytes :=
  let h := (chunks 64 (mdPad 64 (beBytes 8 (8 * msg.length)) msg)).foldl compress
    ⟨0x7380166f, 0x4914b2b9, 0x172442d7, 0xda8a0600, 0xa96f30bc, 0x163138aa, 0xe38dee4d, 0xb0fb0e4e⟩
  ofBeWords [h.a, h.b, h.c, h.d, h.e, h.f, h.g, h.h]

/-- SM3. -/
def sm3 : HashFn Empty Unit := plainFn 32 hash

end Digestpp.Spec.Sm3
