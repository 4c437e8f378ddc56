import Verif.Cpp.Src.Md5
import Verif.Cpp.Src.Sha1
import Verif.Cpp.Src.Sha256
import Verif.Cpp.Src.Sha512
import Verif.Cpp.Src.Sm3
import Verif.Cpp.Src.Sha3
import Verif.Cpp.Src.Whirlpool

/-! The member functions of a provider, called one after the other on an object. -/

namespace Digestpp.Cpp

/-- The translated member functions of a provider class. `more` are members that `final` reads besides `pos` and `total`
(sha2_provider.hpp 205, 272: `hs`). -/
structure Class where
  init : Stmt
  update : Stmt
  final : Stmt
  transform : Stmt
  more : List Val

/-- md5_provider.hpp 47-192. -/
def md5 : Class := ⟨Src.Md5.init, Src.Md5.update, Src.Md5.final, Src.Md5.transform, []⟩

/-- sha1_provider.hpp 37-156. -/
def sha1 : Class := ⟨Src.Sha1.init, Src.Sha1.update, Src.Sha1.final, Src.Sha1.transform, []⟩

/-- sha2_provider.hpp 92-273, 275-288: `sha2_provider<uint32_t, 224>`. -/
def sha224 : Class := ⟨Src.Sha256.init224, Src.Sha256.update, Src.Sha256.final, Src.Sha256.transform, [.u64 224]⟩

/-- sha2_provider.hpp 92-273, 290-303: `sha2_provider<uint32_t, 256>`. -/
def sha256 : Class := ⟨Src.Sha256.init256, Src.Sha256.update, Src.Sha256.final, Src.Sha256.transform, [.u64 256]⟩

/-- sha2_provider.hpp 92-273: `sha2_provider<uint64_t, 0>` with digests of `hs` bits. Its `init` is run by `initSha512`. -/
def sha512 (hs : Nat) : Class := ⟨.skip, Src.Sha512.update, Src.Sha512.final, Src.Sha512.transform, [.u64 (BitVec.ofNat 64 hs)]⟩

/-- sm3_provider.hpp 60-189. -/
def sm3 : Class := ⟨Src.Sm3.init, Src.Sm3.update, Src.Sm3.final, Src.Sm3.transform, []⟩

/-- whirlpool_provider.hpp 35-137. -/
def whirlpool : Class := ⟨Src.Whirlpool.init, Src.Whirlpool.update, Src.Whirlpool.final, Src.Whirlpool.transform, []⟩

/-- sha3_provider.hpp 121-190, with `hs` and `rate` as the constructors assign them (127-141). -/
def sha3 (hs : Nat) : Class := ⟨Src.Sha3.init, Src.Sha3.update (1600 - 2 * hs), Src.Sha3.final hs (1600 - 2 * hs), Src.Sha3.transform (1600 - 2 * hs), []⟩

/-- An object: `pos`, `total`, the array `m`, the chaining value, and after it the memory used for the local arrays of `transform`
(md5_provider.hpp 188-191, sha1_provider.hpp 152-155, sha2_provider.hpp 268-271, whirlpool_provider.hpp 132-135, sha3_provider.hpp 184-187). -/
structure Object where
  pos : Val
  total : Val
  arrs : List Arr

/-- A call of `init` (hasher.hpp 49-53). There is no parameter, so the array for it is empty. -/
def Class.runInit (c : Class) (N : Nat) (o : Object) : Option Object :=
  match exec N (fun _ _ _ _ => none) c.init ⟨[o.pos, o.total], .a8 [] :: o.arrs⟩ with
  | some ⟨[p, t], _ :: A⟩ => some ⟨p, t, A⟩
  | _ => none

/-- What `init` of `sha2_provider<uint64_t, 0>` calls: function 1 is `update`, function 2 is `final` (sha2_provider.hpp 174, 176). The array given to them is the
array with number 0 in the called function. -/
def Class.own (c : Class) (N : Nat) : Nat → Val → Val → Env → Option Env
  | 1, .ptr 6 0 1, y, ⟨[p, t, hs, l], [e, m, H, M, W, buf, tmp]⟩ =>
    match exec N (invoke N c.transform) c.update ⟨[.ptr 0 0 1, y, p, t], [tmp, m, H, M, W]⟩ with
    | some ⟨[_, _, p, t], [tmp, m, H, M, W]⟩ => some ⟨[p, t, hs, l], [e, m, H, M, W, buf, tmp]⟩
    | _ => none
  | 2, .ptr 5 0 1, _, ⟨[p, t, hs, l], [e, m, H, M, W, buf, tmp]⟩ =>
    match exec N (invoke N c.transform) c.final ⟨[.ptr 0 0 1, p, t, hs], [buf, m, H, M, W]⟩ with
    | some ⟨_ :: p :: t :: _, [buf, m, H, M, W]⟩ => some ⟨[p, t, hs, l], [e, m, H, M, W, buf, tmp]⟩
    | _ => none
  | _, _, _, _ => none

/-- sha2_provider.hpp 172: the characters of `"SHA-512/" + std::to_string(hs)`. -/
def sha512Name (hs : Nat) : List (BitVec 8) :=
  [0x53, 0x48, 0x41, 0x2d, 0x35, 0x31, 0x32, 0x2f] ++ (Nat.toDigits 10 hs).map fun c => BitVec.ofNat 8 c.toNat

/-- A call of `init` of `sha2_provider<uint64_t, 0>` (sha2_provider.hpp 118-181); `buf` is the memory of the local array of that name. -/
def initSha512 (hs N : Nat) (buf : List (BitVec 8)) : Object → Option Object
  | ⟨p, t, [m, H, M, W]⟩ =>
    match exec N ((sha512 hs).own N) Src.Sha512.init
      ⟨[p, t, .u64 (BitVec.ofNat 64 hs), .u64 (BitVec.ofNat 64 (sha512Name hs).length)], [.a8 [], m, H, M, W, .a8 buf, .a8 (sha512Name hs)]⟩ with
    | some ⟨p :: t :: _, [_, m, H, M, W, _, _]⟩ => some ⟨p, t, [m, H, M, W]⟩
    | _ => none
  | _ => none

/-- A call `update(data, len)` with a buffer of `len` bytes (hasher.hpp 86-90). -/
def Class.runUpdate (c : Class) (N : Nat) (o : Object) (data : List (BitVec 8)) : Option Object :=
  match exec N (invoke N c.transform) c.update ⟨[.ptr 0 0 1, .u64 (BitVec.ofNat 64 data.length), o.pos, o.total], .a8 data :: o.arrs⟩ with
  | some ⟨[_, _, p, t], _ :: A⟩ => some ⟨p, t, A⟩
  | _ => none

/-- A call `final(hash)` with a buffer `out`; what is in the buffer afterwards (hasher.hpp 330, 353). -/
def Class.runFinal (c : Class) (N : Nat) (o : Object) (out : List (BitVec 8)) : Option (List (BitVec 8)) :=
  match exec N (invoke N c.transform) c.final ⟨.ptr 0 0 1 :: o.pos :: o.total :: c.more, .a8 out :: o.arrs⟩ with
  | some ⟨_, .a8 b :: _⟩ => some b
  | _ => none

/-- `update` for every part of a message, then `final`. -/
def Class.absorb (c : Class) (N : Nat) (parts : List (List (BitVec 8))) (out : List (BitVec 8)) (o : Object) : Option (List (BitVec 8)) :=
  (parts.foldlM (c.runUpdate N) o).bind fun o => c.runFinal N o out

/-- `init`, `update` for every part of a message, `final`. -/
def Class.hash (c : Class) (N : Nat) (parts : List (List (BitVec 8))) (out : List (BitVec 8)) (o : Object) : Option (List (BitVec 8)) :=
  (c.runInit N o).bind (c.absorb N parts out)

/-- The same for `sha2_provider<uint64_t, 0>`. -/
def hashSha512 (hs N : Nat) (parts : List (List (BitVec 8))) (buf out : List (BitVec 8)) (o : Object) : Option (List (BitVec 8)) :=
  (initSha512 hs N buf o).bind ((sha512 hs).absorb N parts out)

end Digestpp.Cpp
