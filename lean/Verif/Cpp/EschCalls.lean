import Verif.Cpp.Src.Esch

/-! The member functions of `esch_provider`, called one after the other on an object. -/

namespace Digestpp.Cpp.EschCalls

/-- A call of `sparkle` (esch_provider.hpp 23-72); its parameters are of type `int`. -/
def sparkle (N : Nat) (x y : Val) (E : Env) : Option Env :=
  (conv .i32 x).bind fun x => (conv .i32 y).bind fun y => (exec N (fun _ _ _ _ => none) Src.Esch.sparkle ⟨[x, y], E.arrs⟩).map fun E' => { E with arrs := E'.arrs }

/-- What `transform` calls: `sparkle` (esch_provider.hpp 202). -/
def inner (N : Nat) : Nat → Val → Val → Env → Option Env
  | 1, x, y, E => sparkle N x y E
  | _, _, _, _ => none

/-- A call of `transform` with the value `last` for `lastBlock` (esch_provider.hpp 177-204). -/
def transform (N hs : Nat) (last : Bool) (x y : Val) (E : Env) : Option Env :=
  (conv .u64 y).bind fun y => (exec N (inner N) (Src.Esch.transform hs last) ⟨[x, y], E.arrs⟩).map fun E' => { E with arrs := E'.arrs }

/-- What `update` and `squeeze` call: functions 0 and 4 are `transform`, 1 is `sparkle` (esch_provider.hpp 121, 140, 154). -/
def calls (N hs : Nat) : Nat → Val → Val → Env → Option Env
  | 0, x, y, E => transform N hs false x y E
  | 1, x, y, E => sparkle N x y E
  | 4, x, y, E => transform N hs true x y E
  | _, _, _, _ => none

/-- A call of `init` on an object: `pos`, `total`, `squeezing`, and the arrays `m`, `H` and, for the local array, `M` (esch_provider.hpp 109-116, 207-212); `n` is the template argument `N`. -/
def init (n N : Nat) (o : Env) : Option Env :=
  match exec N (fun _ _ _ _ => none) (Src.Esch.init n) ⟨o.vars, .a8 [] :: o.arrs⟩ with
  | some ⟨vs, _ :: A⟩ => some ⟨vs, A⟩
  | _ => none

/-- A call `update(data, len)` with a buffer of `len` bytes (hasher.hpp 86-90). -/
def update (hs N : Nat) (o : Env) (data : List (BitVec 8)) : Option Env :=
  match o.vars with
  | p :: t :: more =>
    match exec N (calls N hs) Src.Esch.update ⟨[.ptr 0 0 1, .u64 (BitVec.ofNat 64 data.length), p, t], .a8 data :: o.arrs⟩ with
    | some ⟨[_, _, p, t], _ :: A⟩ => some ⟨p :: t :: more, A⟩
    | _ => none
  | _ => none

/-- A call `squeeze(hash, hss)` with a buffer of `hss` bytes; what is in the buffer afterwards, and the object (hasher.hpp 206-209). The call `final(hash)` is this one with
`hs / 8` bytes (esch_provider.hpp 162-165). -/
def squeeze (hs : Nat) (xof : Bool) (N : Nat) (o : Env) (out : List (BitVec 8)) : Option (List (BitVec 8) × Env) :=
  match exec N (calls N hs) (Src.Esch.squeeze hs xof) ⟨.ptr 0 0 1 :: .u64 (BitVec.ofNat 64 out.length) :: o.vars, .a8 out :: o.arrs⟩ with
  | some ⟨_ :: _ :: vs, .a8 b :: A⟩ => some (b, ⟨vs.take o.vars.length, A⟩)
  | _ => none

/-- `squeeze` into one buffer after the other. -/
def squeezes (hs : Nat) (xof : Bool) (N : Nat) : List (List (BitVec 8)) → Env → Option (List (List (BitVec 8)))
  | [], _ => some []
  | out :: outs, o => match squeeze hs xof N o out with
    | some (b, o) => (squeezes hs xof N outs o).map (b :: ·)
    | none => none

/-- `init`, `update` for every part of a message, `squeeze` into every buffer. -/
def run (n hs : Nat) (xof : Bool) (N : Nat) (parts outs : List (List (BitVec 8))) (o : Env) : Option (List (List (BitVec 8))) :=
  (init n N o).bind fun o => (parts.foldlM (update hs N) o).bind (squeezes hs xof N outs)

end Digestpp.Cpp.EschCalls
