import Verif.Proofs.Locals.Total
import Verif.Proofs.Locals.Buffers

/-! C58: in the bodies of the transformation functions, and wherever else the providers use local arrays, no index is outside the array and nothing depends on what was in the
arrays before they were written. `Model.Locals` transcribes these bodies with every array access checked against the declared size. -/

namespace Digestpp.Properties
open Model Proofs.Locals

/-- `f` with the contents `k` that its local arrays happen to have at first, `sized` saying that they have their declared sizes: there is a result, it is the one of the model,
and it is the same for all contents. -/
def LocalsOk {κ α : Type} (sized : κ → Prop) (f : κ → M α) (model : M α) : Prop := ∃ a, model = .ok a ∧ ∀ k, sized k → f k = .ok a

/-- All local arrays of a loop body, in all iterations. -/
def Each {κ : Type} (sized : κ → Prop) (k : Nat → κ) : Prop := ∀ i, sized (k i)

theorem LocalsOk.intro {κ α : Type} {sized : κ → Prop} {f : κ → M α} {model : M α} (t : Total model) (h : ∀ k, sized k → f k = model) : LocalsOk sized f model := by
  obtain ⟨a, e⟩ := t
  exact ⟨a, e, fun k hk => (h k hk).trans e⟩

/-- **C58**, MD5. `transform` has no local arrays; the arrays accessed are `H[4]`, the block and the tables. -/
theorem md5_locals (data : Bytes) (n : Nat) (hd : n * 64 ≤ data.length) (s : Blk (List (BitVec 32))) (hs : s.h.length = 4) :
    LocalsOk (fun _ : Unit => True) (fun _ => Locals.Md5.transform data n s) (Md5.transform data n s) :=
  .intro (Md5.transform_total data n hd s) fun _ _ => Md5.transform_eq data n hd s hs

example (s : Blk (List (BitVec 32))) (hs : s.h.length = 4) : ∃ s', Locals.Md5.transform (List.replicate 200 7) 3 s = .ok s' :=
  let ⟨s', _, h⟩ := md5_locals (List.replicate 200 7) 3 (by rw [List.length_replicate]; decide) s hs
  ⟨s', h () trivial⟩

/-- One block too many is an access outside the input. -/
example : Locals.Md5.transform (List.replicate 100 7) 2 ⟨[1, 2, 3, 4], [], 0, 0⟩ = .error .outOfBounds := by rfl

/-- **C58**, SHA-1: `M[16]`, `W[80]`. -/
theorem sha1_locals (data : Bytes) (n : Nat) (hd : n * 64 ≤ data.length) (s : Blk (List (BitVec 32))) (hs : s.h.length = 5) :
    LocalsOk (Each Locals.Sha1.Stack.Sized) (Locals.Sha1.transform · data n s) (Sha1.transform data n s) :=
  .intro (Sha1.transform_total data n hd s) fun k hk => Sha1.transform_eq k hk data n hd s hs

/-- The contents of the arrays differ, the results do not. -/
example (s : Blk (List (BitVec 32))) (hs : s.h.length = 5) :
    Locals.Sha1.transform (fun _ => ⟨List.replicate 16 0, List.replicate 80 0⟩) (List.replicate 64 1) 1 s =
      Locals.Sha1.transform (fun _ => ⟨List.replicate 16 5, List.replicate 80 9⟩) (List.replicate 64 1) 1 s :=
  let ⟨_, _, h⟩ := sha1_locals (List.replicate 64 1) 1 (by decide) s hs
  (h _ fun _ => ⟨rfl, rfl⟩).trans (h _ fun _ => ⟨rfl, rfl⟩).symm

/-- With an array that is one word short there is an access outside it. -/
example : (Locals.Sha1.transform (fun _ => ⟨List.replicate 16 0, List.replicate 79 0⟩) (List.replicate 64 1) 1 ⟨[1, 2, 3, 4, 5], [], 0, 0⟩).map (·.h) = .error .outOfBounds := by
  decide +kernel

/-- **C58**, SHA-224 and SHA-256: `M[16]`, `W[64]`. -/
theorem sha256_locals (data : Bytes) (n : Nat) (hd : n * 64 ≤ data.length) (s : Blk (Sha2.St 32)) (hs : s.h.H.length = 8) :
    LocalsOk (Each (Locals.Sha2.Stack.Sized Sha2.u32)) (Locals.Sha2.transform Sha2.u32 rd32 · data n s) (Sha2.transform Sha2.u32 data n s) :=
  .intro (Sha2.transform_total Sha2.u32 data n hd s) fun k hk =>
    Sha2.transform_eq Sha2.u32 rd32 (by decide) (by decide) (fun _ _ _ _ h hi => Proofs.rd32_block (n := 16) h hi) (Proofs.Locals.loads32_length 16) k hk data n hd s hs

example (s : Blk (Sha2.St 32)) (hs : s.h.H.length = 8) :
    ∃ s', Locals.Sha2.transform Sha2.u32 rd32 (fun _ => ⟨List.replicate 16 5, List.replicate 64 9⟩) (List.replicate 130 1) 2 s = .ok s' :=
  let ⟨s', _, h⟩ := sha256_locals (List.replicate 130 1) 2 (by simp) s hs
  ⟨s', h _ fun _ => ⟨rfl, rfl⟩⟩

/-- **C58**, SHA-384, SHA-512 and SHA-512/t: `M[16]`, `W[80]`. -/
theorem sha512_locals (data : Bytes) (n : Nat) (hd : n * 128 ≤ data.length) (s : Blk (Sha2.St 64)) (hs : s.h.H.length = 8) :
    LocalsOk (Each (Locals.Sha2.Stack.Sized Sha2.u64)) (Locals.Sha2.transform Sha2.u64 rd64 · data n s) (Sha2.transform Sha2.u64 data n s) :=
  .intro (Sha2.transform_total Sha2.u64 data n hd s) fun k hk =>
    Sha2.transform_eq Sha2.u64 rd64 (by decide) (by decide) (fun _ _ _ _ h hi => Proofs.rd64_block (n := 16) h hi) (Proofs.Locals.loads64_length 16) k hk data n hd s hs

example (s : Blk (Sha2.St 64)) (hs : s.h.H.length = 8) :
    ∃ s', Locals.Sha2.transform Sha2.u64 rd64 (fun _ => ⟨List.replicate 16 5, List.replicate 80 9⟩) (List.replicate 130 1) 1 s = .ok s' :=
  let ⟨s', _, h⟩ := sha512_locals (List.replicate 130 1) 1 (by simp) s hs
  ⟨s', h _ fun _ => ⟨rfl, rfl⟩⟩

/-- **C58**, SHA-512/t: the array `buf[64]` in `init`. -/
theorem sha512t_locals (s : Blk (Sha2.St 64)) (buf : Bytes) (hb : buf.length = 64) : Locals.Sha2.initGen buf s = Sha2.initGen s := Sha2.initGen_eq buf hb s

/-- Digests of 512 bits and less fit into `buf`; more would not. -/
example : ∃ b, memcpyTo (List.replicate 64 0) 0 (List.replicate 64 1) = .ok b ∧ memcpyTo (List.replicate 64 0) 0 (List.replicate 65 1) = .error .outOfBounds := ⟨_, rfl, rfl⟩

/-- **C58**, SM3: `M[16]`, `W[68]`, `W2[64]`; `rotate_left` as machines do it. -/
theorem sm3_locals (data : Bytes) (n : Nat) (hd : n * 64 ≤ data.length) (s : Blk (List (BitVec 32))) (hs : s.h.length = 8) :
    LocalsOk (Each Locals.Sm3.Stack.Sized) (Locals.Sm3.transform rotlMasked · data n s) (Sm3.transform rotlMasked data n s) :=
  .intro (Sm3.transform_total data n hd s) fun k hk => Sm3.transform_eq rotlMasked k hk data n hd s hs

/-- **C58**, SM3, whatever `rotate_left` by zero does. -/
theorem sm3_locals_any (rot : Sm3.Rot) (k : Nat → Locals.Sm3.Stack) (hk : Each Locals.Sm3.Stack.Sized k) (data : Bytes) (n : Nat) (hd : n * 64 ≤ data.length)
    (s : Blk (List (BitVec 32))) (hs : s.h.length = 8) : Locals.Sm3.transform rot k data n s = Sm3.transform rot data n s :=
  Sm3.transform_eq rot k hk data n hd s hs

example (s : Blk (List (BitVec 32))) (hs : s.h.length = 8) :
    ∃ s', Locals.Sm3.transform rotlMasked (fun _ => ⟨List.replicate 16 5, List.replicate 68 9, List.replicate 64 3⟩) (List.replicate 64 1) 1 s = .ok s' :=
  let ⟨s', _, h⟩ := sm3_locals (List.replicate 64 1) 1 (by decide) s hs
  ⟨s', h _ fun _ => ⟨rfl, rfl, rfl⟩⟩

/-- **C58**, Keccak (sha3, shake, cshake, kmac, k12, m14): `C[5]`, `D[5]` in each round, `A[25]`. -/
theorem keccak_locals (R rate : Nat) (hR : R ≤ 24) (hrate : rate ≤ 1600) (data : Bytes) (n : Nat) (hd : n * (rate / 8) ≤ data.length) (A : List (BitVec 64)) (hA : A.length = 25) :
    LocalsOk (Each (Each Locals.Sha3.Stack.Sized)) (Locals.Sha3.transform · R rate data n A) (Sha3.transform R rate data n A) :=
  .intro (Sha3.transform_total R rate hrate data n hd A) fun k hk => Sha3.transform_eq k hk R rate hR hrate data n hd A hA

/-- **C58**, the permutation alone, as called by the `squeeze` functions. -/
theorem keccak_permute_locals (R : Nat) (hR : R ≤ 24) (A : List (BitVec 64)) (hA : A.length = 25) :
    LocalsOk (Each Locals.Sha3.Stack.Sized) (Locals.Sha3.permute · R A) (.ok (Sha3.permute R A)) :=
  .intro ⟨_, rfl⟩ fun k hk => (Sha3.permute_ok k hk R hR A hA).1

example : ∃ A, Locals.Sha3.transform (fun _ _ => ⟨List.replicate 5 1, List.replicate 5 2⟩) 24 1088 (List.replicate 272 1) 2 (List.replicate 25 0) = .ok A :=
  let ⟨A, _, h⟩ := keccak_locals 24 1088 (by decide) (by decide) (List.replicate 272 1) 2 (by rw [List.length_replicate]) (List.replicate 25 0) rfl
  ⟨A, h _ fun _ _ => ⟨rfl, rfl⟩⟩

/-- **C58**, BLAKE: `M[16]`, `v[16]` of either word size. -/
theorem blake_locals (padding final : Bool) (data : Bytes) (n : Nat) (s : Blk Blake.St) (hd : n * Blake.blockBytes s.h.hs ≤ data.length) (h5 : s.h.H512.length = 12)
    (h2 : s.h.H256.length = 12) :
    LocalsOk (fun k : (Nat → Locals.Blake.Stack 64) × (Nat → Locals.Blake.Stack 32) => Each Locals.Blake.Stack.Sized k.1 ∧ Each Locals.Blake.Stack.Sized k.2)
      (fun k => Locals.Blake.transform k.1 k.2 padding final data n s) (Blake.transform padding final data n s) :=
  .intro (Blake.transform_total padding final data n s hd) fun k hk => Blake.transform_eq k.1 k.2 hk.1 hk.2 padding final data n s hd h5 h2

example (s : Blk Blake.St) (hh : s.h.hs = 256) (h5 : s.h.H512.length = 12) (h2 : s.h.H256.length = 12) : ∃ s',
    Locals.Blake.transform (fun _ => ⟨List.replicate 16 1, List.replicate 16 2⟩) (fun _ => ⟨List.replicate 16 3, List.replicate 16 4⟩) false false (List.replicate 64 1) 1 s = .ok s' :=
  let ⟨s', _, h⟩ := blake_locals false false (List.replicate 64 1) 1 s (by rw [hh]; decide) h5 h2
  ⟨s', h (fun _ => ⟨List.replicate 16 1, List.replicate 16 2⟩, fun _ => ⟨List.replicate 16 3, List.replicate 16 4⟩) ⟨fun _ => ⟨rfl, rfl⟩, fun _ => ⟨rfl, rfl⟩⟩⟩

/-- **C58**, BLAKE2s and the classes built on it: `M[16]`, `v[16]`. -/
theorem blake2s_locals (padding : Bool) (data : Bytes) (n : Nat) (hd : n * 64 ≤ data.length) (s : Blk (Blake2.St 32)) (hs : s.h.H.length = 8) :
    LocalsOk (Each Locals.Blake.Stack.Sized) (Locals.Blake2.transform Blake2.u32 rd32 · padding data n s) (Blake2.transform Blake2.u32 padding data n s) :=
  .intro (Blake2.transform_total Blake2.u32 padding data n hd s) fun k hk =>
    Blake2.transform_eq Blake2.u32 rd32 (by decide) (by decide) (Proofs.Locals.loads32_length 16) (fun _ _ _ _ h hi => Proofs.rd32_block (n := 16) h hi) k hk padding data n hd s hs

/-- **C58**, BLAKE2b and the classes built on it: `M[16]`, `v[16]`. -/
theorem blake2b_locals (padding : Bool) (data : Bytes) (n : Nat) (hd : n * 128 ≤ data.length) (s : Blk (Blake2.St 64)) (hs : s.h.H.length = 8) :
    LocalsOk (Each Locals.Blake.Stack.Sized) (Locals.Blake2.transform Blake2.u64 rd64 · padding data n s) (Blake2.transform Blake2.u64 padding data n s) :=
  .intro (Blake2.transform_total Blake2.u64 padding data n hd s) fun k hk =>
    Blake2.transform_eq Blake2.u64 rd64 (by decide) (by decide) (Proofs.Locals.loads64_length 16) (fun _ _ _ _ h hi => Proofs.rd64_block (n := 16) h hi) k hk padding data n hd s hs

example (s : Blk (Blake2.St 64)) (hs : s.h.H.length = 8) :
    ∃ s', Locals.Blake2.transform Blake2.u64 rd64 (fun _ => ⟨List.replicate 16 5, List.replicate 16 9⟩) true (List.replicate 128 1) 1 s = .ok s' :=
  let ⟨s', _, h⟩ := blake2b_locals true (List.replicate 128 1) 1 (by simp) s hs
  ⟨s', h _ fun _ => ⟨rfl, rfl⟩⟩

/-- **C58**, keys of BLAKE2: `key[N / 4]`. -/
theorem blake2_key_locals (s : Blk (Blake2.St 32)) (s' : Blk (Blake2.St 64)) (key key' : Bytes) (hk : key.length = 64) (hk' : key'.length = 128) :
    Locals.Blake2.absorbKey key Blake2.u32 s = Blake2.absorbKey Blake2.u32 s ∧ Locals.Blake2.absorbKey key' Blake2.u64 s' = Blake2.absorbKey Blake2.u64 s' :=
  ⟨Blake2.absorbKey_eq (by decide) key hk _ s, Blake2.absorbKey_eq (by decide) key' hk' _ s'⟩

/-- A key longer than the array is out of bounds in both. -/
example : Locals.Blake2.absorbKey (List.replicate 64 7) Blake2.u32 ⟨⟨[], [], [], List.replicate 65 1, 0, 0, false, 0, 0, 0⟩, [], 0, 0⟩ = .error .outOfBounds := by rfl

/-- **C58**, Skein: `keys[N / 64 + 1]`, `tweaks[3]`, `M[N / 64]`, `G[N / 64]`, for the three state sizes. -/
theorem skein_locals (F : Skein.Fns) (hF : F = Skein.f4 ∨ F = Skein.f8 ∨ F = Skein.f16) (reallen : Nat) (mp : Bytes) (n : Nat) (hd : n * (8 * F.nw) ≤ mp.length) (s : Blk Skein.St)
    (hs : s.h.H.length = F.nw) :
    LocalsOk (fun k : (Nat → Locals.Skein.Stack) × List (BitVec 64) × List (BitVec 64) => Each (Locals.Skein.Stack.Sized F) k.1 ∧ k.2.1.length = F.nw + 1 ∧ k.2.2.length = 3)
      (fun k => Locals.Skein.transform F k.1 k.2.1 k.2.2 reallen mp n s) (Skein.transform F reallen mp n s) := by
  have t : ∀ F : Skein.Fns, F = Skein.f4 ∨ F = Skein.f8 ∨ F = Skein.f16 → Proofs.Locals.Skein.TOk F ∧
      ∀ r, r < 8 → ∀ j, j < F.nw / 2 → 0 < (F.C.getD r []).getD j 0 ∧ (F.C.getD r []).getD j 0 < 64 := by
    rintro F (rfl | rfl | rfl)
    · exact ⟨Proofs.Locals.Skein.f4_ok, by decide +kernel⟩
    · exact ⟨Proofs.Locals.Skein.f8_ok, by decide +kernel⟩
    · exact ⟨Proofs.Locals.Skein.f16_ok, by decide +kernel⟩
  obtain ⟨ok, c⟩ := t F hF
  exact .intro (Skein.transform_total c reallen mp n hd s) fun k hk => Skein.transform_eq ok k.1 hk.1 k.2.1 k.2.2 hk.2.1 hk.2.2 reallen mp n hd s hs

example (s : Blk Skein.St) (hs : s.h.H.length = 8) : ∃ s', Locals.Skein.transform Skein.f8 (fun _ => ⟨List.replicate 8 1, List.replicate 8 2⟩) (List.replicate 9 3)
    (List.replicate 3 4) 64 (List.replicate 64 1) 1 s = .ok s' :=
  let ⟨s', _, h⟩ := skein_locals Skein.f8 (.inr (.inl rfl)) 64 (List.replicate 64 1) 1 (by decide) s hs
  ⟨s', h (fun _ => ⟨List.replicate 8 1, List.replicate 8 2⟩, List.replicate 9 3, List.replicate 3 4) ⟨fun _ => ⟨rfl, rfl⟩, rfl, rfl⟩⟩

/-- **C58**, Grøstl: `AQ1`, `AQ2`, `AP1`, `AP2`, of as many words as a block. -/
theorem groestl_locals (data : Bytes) (n : Nat) (s : Blk Groestl.St) (hd : n * Groestl.blockBytes s.h.hs ≤ data.length) (hs : s.h.h.length = 16) :
    LocalsOk (Each (Locals.PQ.Sized (Groestl.cols s.h.hs))) (Locals.Groestl.transform · data n s) (Groestl.transform data n s) :=
  .intro (Groestl.transform_total data n s hd) fun k hk => Groestl.transform_eq k data n s hk hd hs

/-- **C58**, Grøstl: `t1`, `t2` in `outputTransform`. -/
theorem groestl_output_locals (hs : Nat) (h : List (BitVec 64)) (hl : h.length = 16) :
    LocalsOk (fun k : List (BitVec 64) × List (BitVec 64) => k.1.length = Groestl.cols hs ∧ k.2.length = Groestl.cols hs)
      (fun k => Locals.outputTransform (Groestl.cols hs) (Groestl.iterations (Groestl.cols hs)) (Locals.Groestl.roundP (Groestl.cols hs)) k.1 k.2 h)
      (.ok (Groestl.outputTransform (Groestl.cols hs) h)) :=
  .intro ⟨_, rfl⟩ fun k hk => Groestl.outputTransform_eq hs k.1 k.2 h hk.1 hk.2 hl

example (s : Blk Groestl.St) (hh : s.h.hs = 256) (hs : s.h.h.length = 16) :
    ∃ s', Locals.Groestl.transform (fun _ => ⟨List.replicate 8 1, List.replicate 8 2, List.replicate 8 3, List.replicate 8 4⟩) (List.replicate 64 1) 1 s = .ok s' :=
  let ⟨s', _, h⟩ := groestl_locals (List.replicate 64 1) 1 s (by rw [hh]; decide) hs
  ⟨s', h _ fun _ => by rw [hh]; exact ⟨rfl, rfl, rfl, rfl⟩⟩

/-- **C58**, Kupyna: `AQ1`, `AQ2`, `AP1`, `AP2`. -/
theorem kupyna_locals (data : Bytes) (n : Nat) (s : Blk Kupyna.St) (hd : n * Kupyna.blockBytes s.h.hs ≤ data.length) (hs : s.h.h.length = 16) :
    LocalsOk (Each (Locals.PQ.Sized (Kupyna.cols s.h.hs))) (Locals.Kupyna.transform · data n s) (Kupyna.transform data n s) :=
  .intro (Kupyna.transform_total data n s hd) fun k hk => Kupyna.transform_eq k data n s hk hd hs

/-- **C58**, Kupyna: `t1`, `t2` in `outputTransform`. -/
theorem kupyna_output_locals (hs : Nat) (h : List (BitVec 64)) (hl : h.length = 16) :
    LocalsOk (fun k : List (BitVec 64) × List (BitVec 64) => k.1.length = Kupyna.cols hs ∧ k.2.length = Kupyna.cols hs)
      (fun k => Locals.outputTransform (Kupyna.cols hs) (Kupyna.iterations (Kupyna.cols hs)) (Locals.Kupyna.roundP (Kupyna.cols hs)) k.1 k.2 h)
      (.ok (Kupyna.outputTransform (Kupyna.cols hs) h)) :=
  .intro ⟨_, rfl⟩ fun k hk => Kupyna.outputTransform_eq hs k.1 k.2 h hk.1 hk.2 hl

example (s : Blk Kupyna.St) (hh : s.h.hs = 512) (hs : s.h.h.length = 16) :
    ∃ s', Locals.Kupyna.transform (fun _ => ⟨List.replicate 16 1, List.replicate 16 2, List.replicate 16 3, List.replicate 16 4⟩) (List.replicate 128 1) 1 s = .ok s' :=
  let ⟨s', _, h⟩ := kupyna_locals (List.replicate 128 1) 1 s (by rw [hh, List.length_replicate]; decide) hs
  ⟨s', h _ fun _ => by rw [hh]; exact ⟨rfl, rfl, rfl, rfl⟩⟩

/-- **C58**, Whirlpool: `K[8]`, `state[8]` and `L[8]` in each round. -/
theorem whirlpool_locals (data : Bytes) (n : Nat) (hd : n * 64 ≤ data.length) (s : Blk (List (BitVec 64))) (hs : s.h.length = 8) :
    LocalsOk (Each Locals.Whirlpool.Stack.Sized) (Locals.Whirlpool.transform · data n s) (Whirlpool.transform data n s) :=
  .intro (Whirlpool.transform_total data n hd s) fun k hk => Whirlpool.transform_eq k hk data n hd s hs

example (s : Blk (List (BitVec 64))) (hs : s.h.length = 8) :
    ∃ s', Locals.Whirlpool.transform (fun _ => ⟨List.replicate 8 1, List.replicate 8 2, fun _ => List.replicate 8 3⟩) (List.replicate 64 1) 1 s = .ok s' :=
  let ⟨s', _, h⟩ := whirlpool_locals (List.replicate 64 1) 1 (by decide) s hs
  ⟨s', h _ fun _ => ⟨rfl, rfl, fun _ => rfl⟩⟩

/-- **C58**, Streebog: `ch[64]`, `tmp[8]`, `hN[8]`. -/
theorem streebog_locals (final : Bool) (data : Bytes) (n : Nat) (hd : n * 64 ≤ data.length) (s : Blk Streebog.St) (hs : s.h.h.length = 8) (hS : s.h.S.length = 8) :
    LocalsOk (Each Locals.Streebog.Stack.Sized) (Locals.Streebog.transform · final data n s) (Streebog.transform Streebog.addm final data n s) :=
  .intro (Streebog.transform_total _ final data n hd s) fun k hk => Streebog.transform_eq k hk final data n hd s hs hS

example (s : Blk Streebog.St) (hs : s.h.h.length = 8) (hS : s.h.S.length = 8) :
    ∃ s', Locals.Streebog.transform (fun _ => ⟨fun _ => List.replicate 64 1, List.replicate 8 2, List.replicate 8 3⟩) false (List.replicate 64 1) 1 s = .ok s' :=
  let ⟨s', _, h⟩ := streebog_locals false (List.replicate 64 1) 1 (by decide) s hs hS
  ⟨s', h _ fun _ => ⟨fun _ => rfl, rfl, rfl⟩⟩

/-- **C58**, LSH: the members `cv[16]`, `t[16]`, `msgexp[NS + 1][16]` and the tables; `rotate_left` as machines do it. -/
theorem lsh_locals (data data' : Bytes) (n n' : Nat) (hd : n * 128 ≤ data.length) (hd' : n' * 256 ≤ data'.length) (s : Blk (Lsh.St 32)) (s' : Blk (Lsh.St 64))
    (hs : Locals.Lsh.Sized Lsh.u32 s.h) (hs' : Locals.Lsh.Sized Lsh.u64 s'.h) :
    LocalsOk (fun _ : Unit => True) (fun _ => Locals.Lsh.transform rotlMasked Lsh.u32 data n s) (Lsh.transform rotlMasked Lsh.u32 data n s) ∧
      LocalsOk (fun _ : Unit => True) (fun _ => Locals.Lsh.transform rotlMasked Lsh.u64 data' n' s') (Lsh.transform rotlMasked Lsh.u64 data' n' s') :=
  ⟨.intro (Lsh.transform_total Lsh.u32 data n hd s) fun _ _ => Lsh.transform_eq Lsh.good32 rotlMasked data n hd s hs,
    .intro (Lsh.transform_total Lsh.u64 data' n' hd' s') fun _ _ => Lsh.transform_eq Lsh.good64 rotlMasked data' n' hd' s' hs'⟩

/-- **C58**, LSH: `msg[N / 2]` in `init`, `h[N / 2]` in `final`, whatever `rotate_left` by zero does. -/
theorem lsh_buffer_locals (rot : Lsh.Rot 32) (rot' : Lsh.Rot 64) (s : Blk (Lsh.St 32)) (s' : Blk (Lsh.St 64)) (hs : Locals.Lsh.Sized Lsh.u32 s.h)
    (hs' : Locals.Lsh.Sized Lsh.u64 s'.h) (hz : s.h.hs ≤ 256) (hz' : s'.h.hs ≤ 512) (msg msg' : Bytes) (h : List (BitVec 32)) (h' : List (BitVec 64)) (hm : msg.length = 128)
    (hm' : msg'.length = 256) (hh : h.length = 128) (hh' : h'.length = 256) :
    (Locals.Lsh.init msg rot Lsh.u32 s = Lsh.init rot Lsh.u32 s ∧ Locals.Lsh.final h rot Lsh.u32 s = Lsh.final rot Lsh.u32 s) ∧
      (Locals.Lsh.init msg' rot' Lsh.u64 s' = Lsh.init rot' Lsh.u64 s' ∧ Locals.Lsh.final h' rot' Lsh.u64 s' = Lsh.final rot' Lsh.u64 s') :=
  ⟨⟨Lsh.init_eq msg hm rot _ s, Lsh.final_eq Lsh.good32 Lsh.stores32_ok h (by omega) rot s hs (by omega)⟩,
    ⟨Lsh.init_eq msg' hm' rot' _ s', Lsh.final_eq Lsh.good64 Lsh.stores64_ok h' (by omega) rot' s' hs' (by omega)⟩⟩

example : Locals.Lsh.Sized Lsh.u32 ⟨List.replicate 16 0, List.replicate 16 0, List.replicate 27 (List.replicate 16 0), 256⟩ :=
  ⟨rfl, rfl, rfl, fun _ h => by rw [(List.mem_replicate.1 h).2]; rfl⟩

/-- **C58**, JH: `H[16]`, and `msg[64]` in `init`. -/
theorem jh_locals (data : Bytes) (n : Nat) (hd : n * 64 ≤ data.length) (s : Blk Jh.St) (hs : s.h.H.length = 16) :
    LocalsOk (fun _ : Unit => True) (fun _ => Locals.Jh.transform data n s) (Jh.transform data n s) ∧
      LocalsOk (fun msg : Bytes => msg.length = 64) (Locals.Jh.init · s) (Jh.init s) :=
  ⟨.intro (Jh.transform_total data n hd s) fun _ _ => Jh.transform_eq data n hd s hs,
    .intro (Jh.transform_total _ 1 (by simp) _) fun msg hm => Jh.init_eq msg hm s⟩

example (s : Blk Jh.St) (hs : s.h.H.length = 16) : ∃ s', Locals.Jh.transform (List.replicate 64 1) 1 s = .ok s' :=
  let ⟨s', _, h⟩ := (jh_locals (List.replicate 64 1) 1 (by decide) s hs).1
  ⟨s', h () trivial⟩

/-- **C58**, ECHO: `w[32]`, and the member `h[32]` whose upper part is also the buffer; data given by the user. -/
theorem echo_locals (data : Bytes) (n : Nat) (s : Blk Echo.St) (hd : n * Echo.blockBytes s.h.hs ≤ data.length) (hs : Proofs.Locals.Echo.Sized s) :
    LocalsOk (Each fun w : List (BitVec 64) => w.length = 32)
      (fun k => Locals.Echo.transform s.h.hs s.h.salt s.total k (some data) n true (Echo.blockBytes s.h.hs * n) (Locals.Echo.whole s))
      (Echo.transform data n s >>= fun s' => pure (Locals.Echo.whole s')) :=
  .intro ((Echo.transform_total data n s hd hs.2.1).bind fun _ => .pure _) fun k hk => Echo.transform_eq k hk data n s hd hs

/-- **C58**, ECHO: the calls on the buffer itself, in `update` and in `final`. -/
theorem echo_buffer_locals (s : Blk Echo.St) (hs : Proofs.Locals.Echo.Sized s) (addedbits : Bool) :
    LocalsOk (Each fun w : List (BitVec 64) => w.length = 32)
      (fun k => Locals.Echo.transform s.h.hs s.h.salt s.total k none 1 true (Echo.blockBytes s.h.hs * 1) (Locals.Echo.whole s))
      (Echo.transform s.m 1 s >>= fun s' => pure (Locals.Echo.whole s')) ∧
    LocalsOk (Each fun w : List (BitVec 64) => w.length = 32)
      (fun k => Locals.Echo.transform s.h.hs s.h.salt s.total k none 1 addedbits 0 (Locals.Echo.whole s))
      (.ok (Locals.Echo.whole (Echo.transformLast addedbits s))) :=
  ⟨.intro ((Echo.transform_total s.m 1 s (by rw [hs.2.1]; omega) hs.2.1).bind fun _ => .pure _) fun k hk => Echo.transform_buffer k hk s hs,
    .intro ⟨_, rfl⟩ fun k hk => Echo.transformLast_eq k hk addedbits s hs⟩

example (c salt : List (BitVec 64)) (m : Bytes) (hc : c.length = 8) (hm : m.length = 192) (hs : salt.length = 2) : Proofs.Locals.Echo.Sized ⟨⟨c, salt, 256⟩, m, 0, 0⟩ :=
  ⟨hc.trans (show 8 = 32 - Echo.blockBytes 256 / 8 by decide), hm.trans (show 192 = Echo.blockBytes 256 by decide), hs⟩

/-- **C58**, Esch: `M[4]`, and `H[N / 32]` with `N` 384 or 512. -/
theorem esch_locals (lastBlock : Bool) (data : Bytes) (n : Nat) (hd : n * 16 ≤ data.length) (s : Blk Esch.St) (hs : (if s.h.hs > 256 then 16 else 12) ≤ s.h.H.length) :
    LocalsOk (Each fun Mw : List (BitVec 32) => Mw.length = 4) (Locals.Esch.transform · lastBlock data n s) (Esch.transform lastBlock data n s) :=
  .intro (Esch.transform_total lastBlock data n hd s) fun k hk => Esch.transform_eq k hk lastBlock data n hd s hs

/-- **C58**, Sparkle alone, as called by `squeeze`. -/
theorem sparkle_locals (rounds ns : Nat) (hr : rounds = 6 ∨ rounds = 8) (H : List (BitVec 32)) (hH : rounds * 2 ≤ H.length) :
    Locals.Esch.sparkle rounds ns H = .ok (Esch.sparkle rounds ns H) :=
  (Esch.sparkle_ok rounds ns hr H.length hH H rfl).1

/-- Sparkle512 on the array of Sparkle384 is an access outside it. -/
example : Locals.Esch.sparkle 8 1 (List.replicate 12 0) = .error .outOfBounds := by decide +kernel

/-- **C58**, Ascon: `H[5]`. -/
theorem ascon_locals (data : Bytes) (n : Nat) (hd : n * 8 ≤ data.length) (s : Blk Ascon.St) (hs : s.h.H.length = 5) :
    LocalsOk (fun _ : Unit => True) (fun _ => Locals.Ascon.transform data n s) (Ascon.transform data n s) :=
  .intro (Ascon.transform_total data n hd s) fun _ _ => Ascon.transform_eq data n hd s hs

example : ∃ s', Locals.Ascon.transform (List.replicate 17 1) 2 ⟨⟨[1, 2, 3, 4, 5], [], false⟩, [], 0, 0⟩ = .ok s' :=
  let ⟨s', _, h⟩ := ascon_locals (List.replicate 17 1) 2 (by decide) ⟨⟨[1, 2, 3, 4, 5], [], false⟩, [], 0, 0⟩ rfl
  ⟨s', h () trivial⟩

/-- **C58**, `left_encode` and `right_encode` write the encoding to the front of the array and leave the rest; ten bytes are enough. -/
theorem encode_locals (num : Nat) (k12 : Bool) (buf : Bytes) (hb : 10 ≤ buf.length) :
    Locals.Shake.leftEncode num buf = .ok (Shake.leftEncode num ++ buf.drop (Shake.leftEncode num).length, (Shake.leftEncode num).length) ∧
      Locals.Shake.rightEncode num k12 buf = .ok (Shake.rightEncode num k12 ++ buf.drop (Shake.rightEncode num k12).length, (Shake.rightEncode num k12).length) := by
  obtain ⟨r, e, h1, h2⟩ := Shake.leftEncode_ok num buf hb
  obtain ⟨r', e', h1', h2'⟩ := Shake.rightEncode_ok num k12 buf hb
  refine ⟨e.trans ?_, e'.trans ?_⟩
  · rw [← h1, h1, ← h2]; exact congrArg (fun x => Except.ok (r.1, x)) h1
  · rw [← h2']; exact congrArg (fun x => Except.ok (r'.1, x)) h1'

example : Locals.Shake.leftEncode 300 (List.replicate 10 9) = .ok ([2, 1, 44, 9, 9, 9, 9, 9, 9, 9], 3) := by decide +kernel

example : Locals.Shake.rightEncode 0 true (List.replicate 10 9) = .ok ([0, 9, 9, 9, 9, 9, 9, 9, 9, 9], 1) := by decide +kernel

/-- **C58**, cSHAKE: `buf[1024]` in `init`. -/
theorem cshake_locals (R rate : Nat) (hr : rate ≤ 8192) (s : Blk Shake.St) (buf : Bytes) (hb : buf.length = 1024) : Locals.Shake.initPrefix buf R rate s = Shake.initPrefix R rate s :=
  Shake.initPrefix_eq buf (by omega) R rate hr s

/-- **C58**, KMAC: `buf[32]` in `bytepad` and in `squeeze`. -/
theorem kmac_locals (B : Nat) (str : Bytes) (xof : Bool) (hs : Nat) (s : Kmac.St) (buf : Bytes) (hb : buf.length = 32) :
    Locals.Kmac.bytepad buf B str = .ok (Kmac.bytepad B str) ∧ Locals.Kmac.squeezeFirst buf B xof hs s = Kmac.squeezeFirst B xof hs s :=
  ⟨Kmac.bytepad_eq buf (by omega) B str, Kmac.squeezeFirst_eq buf (by omega) B xof hs s⟩

example : Locals.Kmac.bytepad (List.replicate 32 9) 128 [1, 2, 3] = .ok (Kmac.bytepad 128 [1, 2, 3]) := (kmac_locals 128 [1, 2, 3] false 0 ⟨[], 0, false, ⟨⟨[], [], [], false, 0⟩, [], 0, 0⟩⟩ _ rfl).1

/-- **C58**, KangarooTwelve, KT256 and MarsupilamiFourteen: `buf[B / 4]` in `transform` and in `squeeze`. -/
theorem k12_locals (B R : Nat) (hB : B = 128 ∨ B = 256) (b : Bytes) (h : K12.St) (s : Blk K12.St) (buf : Bytes) (hb : buf.length = B / 4) :
    Locals.K12.next buf B R (Shake.rateOf B) b h = K12.next B R (Shake.rateOf B) b h ∧ Locals.K12.squeezeFirst buf B R s = K12.squeezeFirst B R s :=
  ⟨K12.next_eq buf B R _ (by omega) (by unfold Shake.rateOf; split <;> omega) b h, K12.squeezeFirst_eq buf B R hB hb s⟩

example (s : Blk K12.St) : Locals.K12.squeezeFirst (List.replicate 32 9) 128 12 s = Locals.K12.squeezeFirst (List.replicate 32 0) 128 12 s :=
  ((k12_locals 128 12 (.inl rfl) [] s.h s _ rfl).2).trans ((k12_locals 128 12 (.inl rfl) [] s.h s _ rfl).2).symm

end Digestpp.Properties
