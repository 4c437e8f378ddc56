import Verif.Cpp.Src.Sha3
import Verif.Cpp.Src.Shake

/-! The member functions of `shake_provider`, called one after the other on an object. -/

namespace Digestpp.Cpp.Xof

/-- The functions `squeeze` and `update` of shake_provider.hpp call: 0 is `transform` with four parameters (sha3_provider.hpp 105-116), 1 the one with one parameter
(sha3_provider.hpp 20-103), on `A`. The variables of the first that are around the second where it is translated have no value. -/
def calls (rate N : Nat) : Nat → Val → Val → Env → Option Env
  | 0, x, y, E => invoke N (Src.Sha3.transform rate) 0 x y E
  | 1, .ptr 2 0 8, _, E =>
    (exec N (fun _ _ _ _ => none) Src.Sha3.permute ⟨[.undef .u64, .undef .u64, .undef .u64, .undef .u64, .undef .u64], E.arrs⟩).map fun E' => { E with arrs := E'.arrs }
  | _, _, _, _ => none

/-- What `init` calls: function 2 is `update` (shake_provider.hpp 94-109). The arrays `buf`, `N` and `S` have the numbers 5, 6 and 7; the first `len` bytes are the
array with number 0 in the called function, so that it has no meaning if more of them are used. -/
def own (rate N : Nat) : Nat → Val → Val → Env → Option Env
  | 2, .ptr (a + 5) 0 1, .u64 len, ⟨p :: t :: vs, e :: m :: A :: C :: D :: more⟩ =>
    match more[a]? with
    | some (.a8 b) =>
      if len.toNat ≤ b.length then
        match exec N (calls rate N) (Src.Shake.update rate) ⟨[.ptr 0 0 1, .u64 len, p, t], [.a8 (b.take len.toNat), m, A, C, D]⟩ with
        | some ⟨[_, _, p, t], [_, m, A, C, D]⟩ => some ⟨p :: t :: vs, e :: m :: A :: C :: D :: more⟩
        | _ => none
      else none
    | _ => none
  | _, _, _, _ => none

/-- The strings of an object, and the memory used for the local array `buf` of `init` (shake_provider.hpp 90, 171-172). -/
structure Strings where
  N : List (BitVec 8)
  S : List (BitVec 8)
  buf : List (BitVec 8)

/-- A call of `init` (hasher.hpp 49-53) on an object: `pos`, `total`, `squeezing`, `suffix`, `N.empty()`, `S.empty()`, and the arrays `m` and `A`, followed by the memory used
for the local arrays of the permutation (shake_provider.hpp 169-177). There is no parameter, so the array for it is empty. -/
def init (rate N : Nat) (x : Strings) (o : Env) : Option Env :=
  match exec N (own rate N) (Src.Shake.init rate)
    ⟨o.vars ++ [.u64 (BitVec.ofNat 64 x.N.length), .u64 (BitVec.ofNat 64 x.S.length)], .a8 [] :: o.arrs ++ [.a8 x.buf, .a8 x.N, .a8 x.S]⟩ with
  | some ⟨vs, _ :: A⟩ => some ⟨vs.take o.vars.length, A.take o.arrs.length⟩
  | _ => none

/-- A call `update(data, len)` with a buffer of `len` bytes (hasher.hpp 86-90). -/
def update (rate N : Nat) (o : Env) (data : List (BitVec 8)) : Option Env :=
  match o.vars with
  | p :: t :: more =>
    match exec N (calls rate N) (Src.Shake.update rate) ⟨[.ptr 0 0 1, .u64 (BitVec.ofNat 64 data.length), p, t], .a8 data :: o.arrs⟩ with
    | some ⟨[_, _, p, t], _ :: A⟩ => some ⟨p :: t :: more, A⟩
    | _ => none
  | _ => none

/-- A call `squeeze(hash, hs)` with a buffer of `hs` bytes; what is in the buffer afterwards, and the object (hasher.hpp 206-209). -/
def squeeze (rate N : Nat) (o : Env) (out : List (BitVec 8)) : Option (List (BitVec 8) × Env) :=
  match exec N (calls rate N) (Src.Shake.squeeze rate) ⟨.ptr 0 0 1 :: .u64 (BitVec.ofNat 64 out.length) :: o.vars, .a8 out :: o.arrs⟩ with
  | some ⟨_ :: _ :: vs, .a8 b :: A⟩ => some (b, ⟨vs.take o.vars.length, A⟩)
  | _ => none

/-- `squeeze` into one buffer after the other. -/
def squeezes (rate N : Nat) : List (List (BitVec 8)) → Env → Option (List (List (BitVec 8)))
  | [], _ => some []
  | out :: outs, o => match squeeze rate N o out with
    | some (b, o) => (squeezes rate N outs o).map (b :: ·)
    | none => none

/-- `init`, `update` for every part of a message, `squeeze` into every buffer. -/
def run (rate N : Nat) (x : Strings) (parts outs : List (List (BitVec 8))) (o : Env) : Option (List (List (BitVec 8))) :=
  (init rate N x o).bind fun o => (parts.foldlM (update rate N) o).bind (squeezes rate N outs)

end Digestpp.Cpp.Xof
