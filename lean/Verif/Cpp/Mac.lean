import Verif.Cpp.Xof
import Verif.Cpp.Src.Kmac

/-! The member functions of `kmac_provider`, called one after the other on an object. `init` and `update` (kmac_provider.hpp 81-92) are calls of those of the member `shake` and are
written here by hand; `squeeze` is the translated text. -/

namespace Digestpp.Cpp.Mac

/-- The functions `squeeze` of kmac_provider.hpp calls: 2 is `update` on the first `len` bytes of the array `buf` (line 100 and 89-92), 3 is `shake.squeeze` on the whole buffer of the
caller (line 103). -/
def calls (rate N : Nat) : Nat → Val → Val → Env → Option Env
  | 2, .ptr 5 0 1, .u64 len, ⟨h :: k :: q :: vs, e :: m :: A :: C :: D :: .a8 b :: more⟩ =>
    if len.toNat ≤ b.length then
      match Xof.update rate N ⟨vs.take 6, [m, A, C, D]⟩ (b.take len.toNat) with
      | some o => some ⟨h :: k :: q :: (o.vars ++ vs.drop 6), e :: (o.arrs ++ .a8 b :: more)⟩
      | none => none
    else none
  | 3, .ptr 0 0 1, .u64 len, ⟨h :: k :: q :: vs, .a8 e :: m :: A :: C :: D :: more⟩ =>
    if len.toNat = e.length then
      match Xof.squeeze rate N ⟨vs.take 6, [m, A, C, D]⟩ e with
      | some (b, o) => some ⟨h :: k :: q :: (o.vars ++ vs.drop 6), .a8 b :: (o.arrs ++ more)⟩
      | none => none
    else none
  | _, _, _, _ => none

/-- A call `squeeze(hash, hs)` with a buffer of `hs` bytes; `q` is the member `squeezing`, `o` the member `shake` (kmac_provider.hpp 94-104, 123-127), `buf` the memory used for the
local array `buf`. What is in the buffer afterwards, and the object. -/
def squeeze (rate N : Nat) (xof : Bool) (buf : List (BitVec 8)) (q : Bool) (o : Env) (out : List (BitVec 8)) : Option (List (BitVec 8) × Bool × Env) :=
  match exec N (calls rate N) (Src.Kmac.squeeze xof) ⟨.ptr 0 0 1 :: .u64 (BitVec.ofNat 64 out.length) :: .bool q :: o.vars, .a8 out :: (o.arrs ++ [.a8 buf])⟩ with
  | some ⟨_ :: _ :: .bool q :: vs, .a8 b :: A⟩ => some (b, q, ⟨vs, A.take o.arrs.length⟩)
  | _ => none

/-- `squeeze` into one buffer after the other. -/
def squeezes (rate N : Nat) (xof : Bool) (buf : List (BitVec 8)) : List (List (BitVec 8)) → Bool → Env → Option (List (List (BitVec 8)))
  | [], _, _ => some []
  | out :: outs, q, o => match squeeze rate N xof buf q o out with
    | some (b, q, o) => (squeezes rate N xof buf outs q o).map (b :: ·)
    | none => none

/-- `init` (kmac_provider.hpp 81-87; `x.N` is the string of line 84, `K` the member), `update` for every part of a message (89-92), `squeeze` into every buffer. `final` (106-109) is
one call of `squeeze` with a buffer of `hs / 8` bytes. -/
def run (rate N : Nat) (xof : Bool) (x : Xof.Strings) (K buf : List (BitVec 8)) (parts outs : List (List (BitVec 8))) (o : Env) : Option (List (List (BitVec 8))) :=
  (Xof.init rate N x o).bind fun o => (Xof.update rate N o K).bind fun o => (parts.foldlM (Xof.update rate N) o).bind (squeezes rate N xof buf outs false)

end Digestpp.Cpp.Mac
