import Verif.Cpp.Src.Ascon

/-! The member functions of `ascon_provider`, called one after the other on an object. -/

namespace Digestpp.Cpp.AsconCalls

/-- What `update` and `squeeze` call: `transform` (ascon_provider.hpp 141-173). -/
def calls (N : Nat) : Nat → Val → Val → Env → Option Env
  | 0, x, y, E => invoke N Src.Ascon.transform 0 x y E
  | _, _, _, _ => none

/-- What `init` calls: function 2 is `update` (ascon_provider.hpp 85-89), with the first `len` bytes of an array after `H`; they are the array with number 0 in the called
function, so that it has no meaning if more of them are used. -/
def own (N : Nat) : Nat → Val → Val → Env → Option Env
  | 2, .ptr (a + 3) 0 1, .u64 len, ⟨p :: t :: vs, e :: m :: H :: more⟩ =>
    match more[a]? with
    | some b =>
      if len.toNat ≤ b.bytes.length then
        match exec N (calls N) Src.Ascon.update ⟨[.ptr 0 0 1, .u64 len, p, t], [.a8 (b.bytes.take len.toNat), m, H]⟩ with
        | some ⟨[_, _, p, t], [_, m, H]⟩ => some ⟨p :: t :: vs, e :: m :: H :: more⟩
        | _ => none
      else none
    | _ => none
  | _, _, _, _ => none

/-- A call of `init` on an object: `pos`, `total`, `squeezing`, and the arrays `m` and `H` (ascon_provider.hpp 176-183). The tables of initial values, memory for the variable
`Z0` and the characters of the string `Z` follow them. -/
def init (type N : Nat) (Z : List (BitVec 8)) (z0 : BitVec 64) (o : Env) : Option Env :=
  match exec N (own N) (Src.Ascon.init type) ⟨o.vars ++ [.bool Z.isEmpty, .u64 (BitVec.ofNat 64 Z.length)],
    .a8 [] :: o.arrs ++ [.a64 Model.ascon_IVHASH, .a64 Model.ascon_IVXOF, .a64 Model.ascon_IVCXOF, .a64 [z0], .a8 Z]⟩ with
  | some ⟨vs, _ :: A⟩ => some ⟨vs.take o.vars.length, A.take o.arrs.length⟩
  | _ => none

/-- A call `update(data, len)` with a buffer of `len` bytes (hasher.hpp 86-90). -/
def update (N : Nat) (o : Env) (data : List (BitVec 8)) : Option Env :=
  match o.vars with
  | p :: t :: more =>
    match exec N (calls N) Src.Ascon.update ⟨[.ptr 0 0 1, .u64 (BitVec.ofNat 64 data.length), p, t], .a8 data :: o.arrs⟩ with
    | some ⟨[_, _, p, t], _ :: A⟩ => some ⟨p :: t :: more, A⟩
    | _ => none
  | _ => none

/-- A call `squeeze(hash, hs)` with a buffer of `hs` bytes; what is in the buffer afterwards, and the object (hasher.hpp 206-209). The call `final(hash)` of `ascon_hash` is this
one with 256 / 8 bytes (ascon_provider.hpp 126-129). -/
def squeeze (N : Nat) (o : Env) (out : List (BitVec 8)) : Option (List (BitVec 8) × Env) :=
  match exec N (calls N) Src.Ascon.squeeze ⟨.ptr 0 0 1 :: .u64 (BitVec.ofNat 64 out.length) :: o.vars, .a8 out :: o.arrs⟩ with
  | some ⟨_ :: _ :: vs, .a8 b :: A⟩ => some (b, ⟨vs.take o.vars.length, A⟩)
  | _ => none

/-- `squeeze` into one buffer after the other. -/
def squeezes (N : Nat) : List (List (BitVec 8)) → Env → Option (List (List (BitVec 8)))
  | [], _ => some []
  | out :: outs, o => match squeeze N o out with
    | some (b, o) => (squeezes N outs o).map (b :: ·)
    | none => none

/-- `init`, `update` for every part of a message, `squeeze` into every buffer. -/
def run (type N : Nat) (Z : List (BitVec 8)) (z0 : BitVec 64) (parts outs : List (List (BitVec 8))) (o : Env) : Option (List (List (BitVec 8))) :=
  (init type N Z z0 o).bind fun o => (parts.foldlM (update N) o).bind (squeezes N outs)

end Digestpp.Cpp.AsconCalls
