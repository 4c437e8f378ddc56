import Verif.Proofs.Cpp.Init512
import Verif.Proofs.Cpp.Meaning
import Verif.Proofs.Cpp.Sm3
import Verif.Proofs.Cpp.Sha3Hash
import Verif.Proofs.Cpp.ShakeXof
import Verif.Proofs.Cpp.WhirlpoolHash
import Verif.Properties.Sha2

/-! C71: the text of the source files, translated statement by statement (`Cpp/Src`, written by `tools/cpp2lean.py`) and run by an interpreter for the part of C++ it uses
(`Cpp/Semantics.lean`), computes the functions of the standards. The interpreter has no result if the program reads or writes outside an array, reads an uninitialized variable,
overflows an `int`, shifts by the width of the type, divides by zero, copies between overlapping ranges, or runs a loop for `N` or more iterations. `N` may be any number larger
than what is given here. Of `Model` only the tables appear in these statements, which are copied from the text of the library too. -/

namespace Digestpp.Properties
open Cpp

/-- The calls stay within what a 64-bit machine can address, and loops have fewer than `N` iterations. -/
structure Parts (N : Nat) (parts : List Bytes) : Prop where
  short : ∀ d ∈ parts, d.length < 2 ^ 63
  steps : ∀ d ∈ parts, d.length < N
  rounds : 80 < N

/-- **C71**, md5_provider.hpp. -/
theorem md5_source {N : Nat} {parts : List Bytes} (h : Parts N parts) (pos total : BitVec 64) (m out : Bytes) (H : List (BitVec 32)) (hm : m.length = 64) (hH : H.length = 4)
    (ho : out.length = 16) : Cpp.md5.hash N parts out ⟨.u64 pos, .u64 total, [.a8 m, .a32 H]⟩ = some (Spec.Md5.md5.digest () parts.flatten) :=
  md5_hash h.short h.steps (by have := h.rounds; omega) ho hm hH

/-- **C71**, sha1_provider.hpp. `M` and `W` are what the local arrays of `transform` contain at first. -/
theorem sha1_source {N : Nat} {parts : List Bytes} (h : Parts N parts) (pos total : BitVec 64) (m out : Bytes) (H M W : List (BitVec 32)) (hm : m.length = 64) (hH : H.length = 5)
    (hM : M.length = 16) (hW : W.length = 80) (ho : out.length = 20) :
    Cpp.sha1.hash N parts out ⟨.u64 pos, .u64 total, [.a8 m, .a32 H, .a32 M, .a32 W]⟩ = some (Spec.Sha1.sha1.digest () parts.flatten) :=
  sha1_hash h.short h.steps h.rounds ho hm hH hM hW

/-- **C71**, sha2_provider.hpp, `T = uint32_t`, 224 bits. -/
theorem sha224_source {N : Nat} {parts : List Bytes} (h : Parts N parts) (pos total : BitVec 64) (m out : Bytes) (H M W : List (BitVec 32)) (hm : m.length = 64) (hH : H.length = 8)
    (hM : M.length = 16) (hW : W.length = 64) (ho : out.length = 28) :
    Cpp.sha224.hash N parts out ⟨.u64 pos, .u64 total, [.a8 m, .a32 H, .a32 M, .a32 W]⟩ = some (Spec.Sha2.sha224.digest () parts.flatten) :=
  sha224_hash h.short h.steps h.rounds ho hm hH hM hW

/-- **C71**, sha2_provider.hpp, `T = uint32_t`, 256 bits. -/
theorem sha256_source {N : Nat} {parts : List Bytes} (h : Parts N parts) (pos total : BitVec 64) (m out : Bytes) (H M W : List (BitVec 32)) (hm : m.length = 64) (hH : H.length = 8)
    (hM : M.length = 16) (hW : W.length = 64) (ho : out.length = 32) :
    Cpp.sha256.hash N parts out ⟨.u64 pos, .u64 total, [.a8 m, .a32 H, .a32 M, .a32 W]⟩ = some (Spec.Sha2.sha256.digest () parts.flatten) :=
  sha256_hash h.short h.steps h.rounds ho hm hH hM hW

/-- **C71**, sha2_provider.hpp, `T = uint64_t`, digests of `hs` bits: `update` and `final`, starting with any chaining value. -/
theorem sha512_absorb_source {N : Nat} {parts : List Bytes} (h : Parts N parts) (hs : Nat) (h0 : 8 ≤ hs) (h512 : hs ≤ 512) (iv : Spec.Sha2.H8 64) (m out : Bytes) (M W : List (BitVec 64))
    (hm : m.length = 128) (hM : M.length = 16) (hW : W.length = 80) (ho : out.length = hs / 8) (hl : parts.flatten.length < 2 ^ 61) :
    (Cpp.sha512 hs).absorb N parts out ⟨.u64 0, .u64 0, [.a8 m, .a64 [iv.a, iv.b, iv.c, iv.d, iv.e, iv.f, iv.g, iv.h], .a64 M, .a64 W]⟩ =
      some ((Spec.Sha2.core Spec.Sha2.v512 iv parts.flatten).bytes.take (hs / 8)) := by
  rw [← Proofs.Sha2.coreWith_eq _ _ _ hl]
  exact sha512_hash h.short h.steps h.rounds h512 (by omega) ho iv hm hM hW

/-- **C71**, sha2_provider.hpp, `T = uint64_t`, digests of `hs` bits: `init` with its `switch`, which for most sizes hashes a name with the object itself, `update` and `final`. -/
theorem sha512_source {N : Nat} {parts : List Bytes} (h : Parts N parts) (hs : Nat) (h0 : 8 ≤ hs) (h512 : hs ≤ 512) (pos total : BitVec 64) (m buf out : Bytes) (H M W : List (BitVec 64))
    (hm : m.length = 128) (hb : buf.length = 64) (hH : H.length = 8) (hM : M.length = 16) (hW : W.length = 80) (ho : out.length = hs / 8) (hl : parts.flatten.length < 2 ^ 61) :
    Cpp.hashSha512 hs N parts buf out ⟨.u64 pos, .u64 total, [.a8 m, .a64 H, .a64 M, .a64 W]⟩ = some ((sha512Of hs).digest () parts.flatten) := by
  rw [Cpp.Sha512.hash_run h.short h.steps h.rounds h512 (by omega) ho hm hb hH hM hW, Proofs.Sha2.coreWith_eq _ _ _ hl, sha512Of_eq]
  rfl

/-- **C71**, whirlpool_provider.hpp. The length field has 64 bits, so the messages have fewer than `2^61` bytes; `K`, `state` and `L` are what the local arrays of `transform` contain
at first. -/
theorem whirlpool_source {N : Nat} {parts : List Bytes} (h : Parts N parts) (pos total : BitVec 64) (m out : Bytes) (H K state L : List (BitVec 64)) (hm : m.length = 64) (hH : H.length = 8)
    (hK : K.length = 8) (hS : state.length = 8) (hL : L.length = 8) (ho : out.length = 64) (hl : parts.flatten.length < 2 ^ 61) :
    Cpp.whirlpool.hash N parts out ⟨.u64 pos, .u64 total, [.a8 m, .a64 H, .a64 K, .a64 state, .a64 L]⟩ = some (Spec.Whirlpool.whirlpool.digest () parts.flatten) := by
  rw [whirlpool_hash h.short h.steps h.rounds ho hm hH hK hS hL]
  have e : Spec.Whirlpool.hashWith Spec.wrap64 parts.flatten = Spec.Whirlpool.hashWith (fun n => n) parts.flatten := by
    unfold Spec.Whirlpool.hashWith
    rw [Proofs.wrap64_bits hl]
  exact congrArg some e

/-- The kernel can run the program: "abc" in two calls, the first bytes of the digest in ISO/IEC 10118-3. -/
example : (Cpp.whirlpool.hash 100 [[0x61, 0x62], [0x63]] (List.replicate 64 0)
    ⟨.u64 7, .u64 9, [.a8 (List.replicate 64 3), .a64 (List.replicate 8 1), .a64 (List.replicate 8 2), .a64 (List.replicate 8 3), .a64 (List.replicate 8 4)]⟩).map (·.take 8) =
    some [0x4e, 0x24, 0x48, 0xa4, 0xc6, 0xf4, 0x86, 0xbb] := by decide +kernel

/-- **C71**, sha3_provider.hpp, for the sizes the constructors accept; `C` and `D` are what the local arrays of the permutation contain at first. -/
theorem sha3_source {d : Nat} (hd : d = 224 ∨ d = 256 ∨ d = 384 ∨ d = 512) {N : Nat} {parts : List Bytes} (h : Parts N parts) (pos total : BitVec 64) (m out : Bytes) (A C D : List (BitVec 64))
    (hm : m.length = 144) (hA : A.length = 25) (hC : C.length = 5) (hD : D.length = 5) (ho : out.length = d / 8) :
    (Cpp.sha3 d).hash N parts out ⟨.u64 pos, .u64 total, [.a8 m, .a64 A, .a64 C, .a64 D]⟩ = some ((Spec.sha3 d).digest () parts.flatten) :=
  sha3_hash hd h.short h.steps h.rounds ho hm hA hC hD

/-- The kernel can run the program: "abc" in two calls, the first bytes of the digest in FIPS 202. -/
example : ((Cpp.sha3 256).hash 100 [[0x61, 0x62], [0x63]] (List.replicate 32 0)
    ⟨.u64 7, .u64 9, [.a8 (List.replicate 144 3), .a64 (List.replicate 25 1), .a64 (List.replicate 5 2), .a64 (List.replicate 5 3)]⟩).map (·.take 8) =
    some [0x3a, 0x98, 0x5d, 0xa7, 0x4f, 0xe2, 0x25, 0xb2] := by decide +kernel

/-- A local array `D` that is one word short. -/
example : (Cpp.sha3 256).hash 100 [[0x61]] (List.replicate 32 0)
    ⟨.u64 7, .u64 9, [.a8 (List.replicate 144 3), .a64 (List.replicate 25 1), .a64 (List.replicate 5 2), .a64 (List.replicate 4 3)]⟩ = none := by decide +kernel

/-- **C71**, shake_provider.hpp for cSHAKE128 and cSHAKE256 with any strings `N` and `S` shorter than 2^61 bytes: `init` with its calls of `left_encode` and `update`, then any number
of `update` calls; any number of `squeeze` calls with buffers that are not empty get consecutive pieces of the output. As in C08, the library pads the strings with a whole block
of zeros if their encoding ends with a block; that is `Spec.cshakeFull`. -/
theorem cshake_source {B : Nat} (hB : B = 128 ∨ B = 256) {N : Nat} (hN : 168 < N) {parts outs : List Bytes} (h : Parts N parts) (h' : Parts N outs) (hne : ∀ out ∈ outs, out ≠ [])
    (θ : Spec.Keccak.CShakeParams) (hn : θ.N.length < 2 ^ 61 ∧ θ.N.length < N) (hs : θ.S.length < 2 ^ 61 ∧ θ.S.length < N) (pos total : BitVec 64)
    (squeezing : Bool) (suffix : BitVec 8) (buf m : Bytes) (A C D : List (BitVec 64)) (hbuf : buf.length = 1024) (hm : m.length = 168) (hA : A.length = 25) (hC : C.length = 5) (hD : D.length = 5) :
    Xof.run (1600 - 2 * B) N ⟨θ.N, θ.S, buf⟩ parts outs
        ⟨[.u64 pos, .u64 total, .bool squeezing, .u8 suffix, .bool θ.N.isEmpty, .bool θ.S.isEmpty], [.a8 m, .a64 A, .a64 C, .a64 D]⟩ =
      some (Spec.pieces ((Spec.cshakeFull B).stream θ parts.flatten) 0 (outs.map List.length)) :=
  Shake.run_source hB hN h.short h.steps
    (fun out ho => ⟨List.length_pos_iff.2 (hne out ho), h'.steps out ho, Nat.lt_of_lt_of_le (h'.short out ho) (by decide)⟩) hn.1 hs.1 hn.2 hs.2 hbuf hm hA hC hD

/-- Hence the cSHAKE of SP 800-185 if the encoding of the strings does not end with a block. -/
theorem cshake_source_regular {B : Nat} (hB : B = 128 ∨ B = 256) {N : Nat} (hN : 168 < N) {parts outs : List Bytes} (h : Parts N parts) (h' : Parts N outs) (hne : ∀ out ∈ outs, out ≠ [])
    (θ : Spec.Keccak.CShakeParams) (hr : Spec.Keccak.cshakeRegular (200 - 2 * B / 8) θ) (hn : θ.N.length < 2 ^ 61 ∧ θ.N.length < N) (hs : θ.S.length < 2 ^ 61 ∧ θ.S.length < N)
    (pos total : BitVec 64) (squeezing : Bool) (suffix : BitVec 8) (buf m : Bytes) (A C D : List (BitVec 64)) (hbuf : buf.length = 1024) (hm : m.length = 168) (hA : A.length = 25)
    (hC : C.length = 5) (hD : D.length = 5) :
    Xof.run (1600 - 2 * B) N ⟨θ.N, θ.S, buf⟩ parts outs
        ⟨[.u64 pos, .u64 total, .bool squeezing, .u8 suffix, .bool θ.N.isEmpty, .bool θ.S.isEmpty], [.a8 m, .a64 A, .a64 C, .a64 D]⟩ =
      some (Spec.pieces ((Spec.cshake B).stream θ parts.flatten) 0 (outs.map List.length)) := by
  rw [show (Spec.cshake B).stream θ parts.flatten = (Spec.cshakeFull B).stream θ parts.flatten from Proofs.Shake.stream_regular _ (by omega) θ hr _]
  exact cshake_source hB hN h h' hne θ hn hs pos total squeezing suffix buf m A C D hbuf hm hA hC hD

/-- **C71**, shake_provider.hpp for SHAKE128 and SHAKE256, whose strings `N` and `S` are empty. -/
theorem shake_source {B : Nat} (hB : B = 128 ∨ B = 256) {N : Nat} (hN : 168 < N) {parts outs : List Bytes} (h : Parts N parts) (h' : Parts N outs) (hne : ∀ out ∈ outs, out ≠ []) (pos total : BitVec 64)
    (squeezing : Bool) (suffix : BitVec 8) (buf m : Bytes) (A C D : List (BitVec 64)) (hbuf : buf.length = 1024) (hm : m.length = 168) (hA : A.length = 25) (hC : C.length = 5) (hD : D.length = 5) :
    Xof.run (1600 - 2 * B) N ⟨[], [], buf⟩ parts outs ⟨[.u64 pos, .u64 total, .bool squeezing, .u8 suffix, .bool true, .bool true], [.a8 m, .a64 A, .a64 C, .a64 D]⟩ =
      some (Spec.pieces ((Spec.shake B).stream () parts.flatten) 0 (outs.map List.length)) :=
  cshake_source hB hN h h' hne ⟨[], []⟩ ⟨by decide, Nat.lt_of_le_of_lt (Nat.zero_le _) hN⟩ ⟨by decide, Nat.lt_of_le_of_lt (Nat.zero_le _) hN⟩ pos total squeezing suffix buf m A C D hbuf hm hA hC hD

/-- The first sample of NIST for cSHAKE128: the string "Email Signature" and the bytes 0 to 3; output in two calls. -/
example : Xof.run 1344 400 ⟨[], [0x45, 0x6d, 0x61, 0x69, 0x6c, 0x20, 0x53, 0x69, 0x67, 0x6e, 0x61, 0x74, 0x75, 0x72, 0x65], List.replicate 1024 7⟩ [[0, 1], [2, 3]] [List.replicate 3 0, List.replicate 5 0]
    ⟨[.u64 7, .u64 9, .bool true, .u8 3, .bool true, .bool false],
      [.a8 (List.replicate 168 3), .a64 (List.replicate 25 1), .a64 (List.replicate 5 2), .a64 (List.replicate 5 3)]⟩ =
    some [[0xc1, 0xc3, 0x69], [0x25, 0xb6, 0x40, 0x9a, 0x04]] := by decide +kernel

/-- An array `buf` of 100 bytes is too short for the zeros. -/
example : Xof.run 1344 400 ⟨[], [0x45, 0x6d, 0x61, 0x69, 0x6c, 0x20, 0x53, 0x69, 0x67, 0x6e, 0x61, 0x74, 0x75, 0x72, 0x65], List.replicate 100 7⟩ [[0, 1], [2, 3]] [List.replicate 3 0, List.replicate 5 0]
    ⟨[.u64 7, .u64 9, .bool true, .u8 3, .bool true, .bool false],
      [.a8 (List.replicate 168 3), .a64 (List.replicate 25 1), .a64 (List.replicate 5 2), .a64 (List.replicate 5 3)]⟩ = none := by decide +kernel

/-- The kernel can run the program: "abc" in two calls, and output in three calls across the first 168 bytes of SHAKE128. -/
example : (Xof.run 1344 400 ⟨[], [], List.replicate 1024 7⟩ [[0x61, 0x62], [0x63]] [List.replicate 3 0, List.replicate 165 0, List.replicate 5 0]
    ⟨[.u64 7, .u64 9, .bool true, .u8 3, .bool true, .bool true],
      [.a8 (List.replicate 168 3), .a64 (List.replicate 25 1), .a64 (List.replicate 5 2), .a64 (List.replicate 5 3)]⟩).map (·.map (·.take 5)) =
    some [[88, 129, 9], [45, 216, 24, 191, 92], [106, 160, 27, 63, 90]] := by decide +kernel

/-- A `squeeze` into an empty buffer after the first 168 bytes: the next call does not get the next bytes, [106, 160, 27, 63, 90]. -/
example : (Xof.run 1344 400 ⟨[], [], List.replicate 1024 7⟩ [[0x61, 0x62], [0x63]] [List.replicate 168 0, [], List.replicate 5 0]
    ⟨[.u64 7, .u64 9, .bool true, .u8 3, .bool true, .bool true],
      [.a8 (List.replicate 168 3), .a64 (List.replicate 25 1), .a64 (List.replicate 5 2), .a64 (List.replicate 5 3)]⟩).map (·.map (·.take 5)) ≠
    some [[88, 129, 9, 45, 216], [], [106, 160, 27, 63, 90]] := by decide +kernel

/-- **C71**, sm3_provider.hpp: no message can be hashed, whatever the object, the parts and the buffers, since line 137 shifts a `uint32_t` by 32 bits in the first round of every
block, and `final` has a block in any case. -/
theorem sm3_source_undefined (N : Nat) (parts : List Bytes) (out : Bytes) (o : Object) : Cpp.sm3.hash N parts out o = none := Cpp.Sm3.hash_none N parts out o

/-- It is not `init` that fails. -/
example : (Cpp.sm3.runInit 100 ⟨.u64 7, .u64 9, [.a8 (List.replicate 64 3), .a32 (List.replicate 8 0)]⟩).isSome = true := by decide +kernel

/-- And `update` does not fail while the block is not full. -/
example : (Cpp.sm3.runUpdate 100 ⟨.u64 0, .u64 0, [.a8 (List.replicate 64 3), .a32 (List.replicate 8 0), .a32 (List.replicate 16 0), .a32 (List.replicate 68 0), .a32 (List.replicate 64 0)]⟩
    [1, 2, 3]).isSome = true := by decide +kernel

/-- Reading through a pointer has a meaning only inside an array. -/
theorem load_inside {xs : Arr} {size off : Nat} {v : Val} (h : load xs size off = some v) : off + size ≤ xs.bytes.length := Cpp.load_inside h

/-- Reading or assigning an element has a meaning only below the size. -/
theorem element_inside {xs ys : Arr} {i : Nat} {v : Val} : (xs.get i = some v → i * xs.size < xs.bytes.length) ∧ (xs.put i v = some ys → i * xs.size < xs.bytes.length) :=
  ⟨Cpp.get_inside, Cpp.put_inside⟩

/-- Copying has a meaning only inside the arrays. -/
theorem copy_inside {xs ys : Arr} {off n : Nat} {bs : Bytes} : (xs.part off n = some bs → off + n ≤ xs.bytes.length) ∧ (xs.patch off bs = some ys → off + bs.length ≤ xs.bytes.length) :=
  ⟨Cpp.part_inside, Cpp.patch_inside⟩

/-- Shifts have a meaning only for less than the width. -/
theorem shift_meaning {n : Nat} {v : Val} :
    (∀ x, shiftLeft (.u32 x) n = some v ∨ shiftRight (.u32 x) n = some v → n < 32) ∧ (∀ x, shiftLeft (.u64 x) n = some v ∨ shiftRight (.u64 x) n = some v → n < 64) ∧
    (∀ x, shiftLeft (.i32 x) n = some v ∨ shiftRight (.i32 x) n = some v → n < 32 ∧ 0 ≤ x) := Cpp.shift_meaning

/-- Arithmetic on `int` has a meaning only if the result is an `int`; division only by numbers other than zero. -/
theorem int_meaning {o : Bin} {x y : Int} {r : Val} (h : usual o (.i32 x) (.i32 y) = some r) :
    (o = .add → -2 ^ 31 ≤ x + y ∧ x + y < 2 ^ 31) ∧ (o = .sub → -2 ^ 31 ≤ x - y ∧ x - y < 2 ^ 31) ∧ (o = .mul → -2 ^ 31 ≤ x * y ∧ x * y < 2 ^ 31) ∧ (o = .div ∨ o = .mod → y ≠ 0) :=
  Cpp.int_meaning h

/-- Unsigned arithmetic is modulo the width, and words are not divided by zero. -/
theorem word_meaning (x y : BitVec 32) (v w : BitVec 64) : usual .add (.u32 x) (.u32 y) = some (.u32 (BitVec.ofNat 32 (x.toNat + y.toNat))) ∧
    usual .add (.u64 v) (.u32 y) = some (.u64 (BitVec.ofNat 64 (v.toNat + y.toNat))) ∧ usual .mul (.u64 v) (.u64 w) = some (.u64 (BitVec.ofNat 64 (v.toNat * w.toNat))) ∧
    usual .div (.u64 v) (.u64 0) = none ∧ usual .mod (.u32 x) (.u32 0) = none := Cpp.word_meaning x y v w

/-- A variable that has been given no value cannot be read. -/
theorem read_meaning {E : Env} {k : Nat} {t : Ty} (h : E.vars[k]? = some (.undef t)) (as : List Val) : eval E (.var k) as = none := Cpp.read_meaning h as

/-- `memcpy` has a meaning only if the ranges do not overlap. -/
theorem memcpy_meaning {N : Nat} {ext : Nat → Val → Val → Env → Option Env} {d s n : Expr} {E E' : Env} {a o z p z' k : Nat} {nv : Val} (hd : value E d = some (.ptr a o z))
    (hs : value E s = some (.ptr a p z')) (hn : value E n = some nv) (hk : count nv = some k) (h : exec N ext (.memcpy d s n) E = some E') : o + k ≤ p ∨ p + k ≤ o :=
  Cpp.memcpy_meaning hd hs hn hk h

/-- The hypotheses hold for "abc" in two calls; the kernel can also run the program itself. -/
example : Parts 100 [[0x61, 0x62], [0x63]] := ⟨by decide, by decide, by decide⟩

example : Cpp.md5.hash 100 [[0x61, 0x62], [0x63]] (List.replicate 16 0) ⟨.u64 7, .u64 9, [.a8 (List.replicate 64 3), .a32 [1, 2, 3, 4]]⟩ =
    some [0x90, 0x01, 0x50, 0x98, 0x3c, 0xd2, 0x4f, 0xb0, 0xd6, 0x96, 0x3f, 0x7d, 0x28, 0xe1, 0x7f, 0x72] := by decide +kernel

/-- A buffer for the digest that is one byte short. -/
example : Cpp.md5.hash 100 [[0x61, 0x62], [0x63]] (List.replicate 15 0) ⟨.u64 7, .u64 9, [.a8 (List.replicate 64 3), .a32 [1, 2, 3, 4]]⟩ = none := by decide +kernel

/-- An array `W` that is one word short. -/
example : Cpp.sha1.hash 100 [[0x61]] (List.replicate 20 0) ⟨.u64 7, .u64 9, [.a8 (List.replicate 64 3), .a32 [1, 2, 3, 4, 5], .a32 (List.replicate 16 0), .a32 (List.replicate 79 0)]⟩ =
    none := by decide +kernel

/-- `update` and `final` without `init`: the position may be outside the buffer. -/
example : Cpp.md5.absorb 100 [[0x61]] (List.replicate 16 0) ⟨.u64 70, .u64 9, [.a8 (List.replicate 64 3), .a32 [1, 2, 3, 4]]⟩ = none := by decide +kernel

/-- Uninitialized memory of an object and of the stack has no influence. -/
example (pos total : BitVec 64) (m : Bytes) (hm : m.length = 64) (H M W : List (BitVec 32)) (hH : H.length = 8) (hM : M.length = 16) (hW : W.length = 64) (d : Bytes) (hd : d.length < 1000) :
    Cpp.sha256.hash 1000 [d, d] (List.replicate 32 0) ⟨.u64 pos, .u64 total, [.a8 m, .a32 H, .a32 M, .a32 W]⟩ =
      Cpp.sha256.hash 1000 [d ++ d] (List.replicate 32 0) ⟨.u64 0, .u64 0, [.a8 (List.replicate 64 0), .a32 (List.replicate 8 0), .a32 (List.replicate 16 0), .a32 (List.replicate 64 0)]⟩ ∨
        1000 ≤ (d ++ d).length := by
  by_cases h : (d ++ d).length < 1000
  · refine .inl ((sha256_source ⟨?_, ?_, by decide⟩ pos total m _ H M W hm hH hM hW rfl).trans
      ((sha256_source (parts := [d ++ d]) ⟨?_, ?_, by decide⟩ 0 0 (List.replicate 64 0) (List.replicate 32 0) _ _ _ rfl rfl rfl rfl rfl).trans ?_).symm)
    all_goals simp_all
    all_goals omega
  · exact .inr (by omega)

end Digestpp.Properties
