import Verif.Proofs.PermMd
import Verif.Proofs.PermFeed

/-! C57: feed-forward, and fixed points. -/

namespace Digestpp.Properties
open Spec Model

/-- **C57**, MD5: for each block, the chaining value goes through a permutation and is added to the result, word by word. -/
theorem md5_feedForward (b : Bytes) (hb : b.length = 64) : FeedForward 4 (· + ·) (Md5.compress b) := Proofs.Perm.Md5.feedForward b hb

/-- **C57**, SHA-1. -/
theorem sha1_feedForward (b : Bytes) (hb : b.length = 64) : FeedForward 5 (· + ·) (Sha1.compress b) := Proofs.Perm.Sha1.feedForward b hb

/-- **C57**, SHA-2 with words of 32 bits. -/
theorem sha256_feedForward (b : Bytes) (hb : b.length = 64) : FeedForward 8 (· + ·) fun H => .ok (Sha2.compress Sha2.u32 b H) :=
  Proofs.Perm.Sha2.feedForward Proofs.Sha2.u32_ok b hb

/-- **C57**, SHA-2 with words of 64 bits. -/
theorem sha512_feedForward (b : Bytes) (hb : b.length = 128) : FeedForward 8 (· + ·) fun H => .ok (Sha2.compress Sha2.u64 b H) :=
  Proofs.Perm.Sha2.feedForward Proofs.Sha2.u64_ok b hb

/-- **C57**, SM3: exclusive or instead of addition. -/
theorem sm3_feedForward (b : Bytes) (hb : b.length = 64) : FeedForward 8 (· ^^^ ·) (Sm3.compress rotlMasked b) := Proofs.Perm.Sm3.feedForward b hb

/-- **C57**, Grøstl: the compression function for each block, and the output transformation, on the `R` words in use. -/
theorem groestl_feedForward (R : Nat) (m rest : List (BitVec 64)) :
    (FeedForward R (· ^^^ ·) fun A => .ok ((Groestl.compress R (A ++ rest) m).take R)) ∧
    FeedForward R (· ^^^ ·) fun A => .ok ((Groestl.outputTransform R (A ++ rest)).take R) :=
  ⟨Proofs.Perm.Groestl.compress_feed R m rest, Proofs.Perm.Groestl.output_feed R rest⟩

/-- **C57**, Kupyna: the same. -/
theorem kupyna_feedForward (R : Nat) (hR : R = 8 ∨ R = 16) (m rest : List (BitVec 64)) :
    (FeedForward R (· ^^^ ·) fun A => .ok ((Kupyna.compress R (A ++ rest) m).take R)) ∧
    FeedForward R (· ^^^ ·) fun A => .ok ((Kupyna.outputTransform R (A ++ rest)).take R) :=
  ⟨Proofs.Perm.Kupyna.compress_feed R hR m rest, Proofs.Perm.Kupyna.output_feed R hR rest⟩

/-- **C57**, Whirlpool: here the argument is the block, and the chaining value is fixed. -/
theorem whirlpool_feedForward (h : List (BitVec 64)) : FeedForward 8 (· ^^^ ·) fun A => .ok (Whirlpool.compress (stores64 A) h) :=
  Proofs.Perm.Whirlpool.compress_feed h

/-- **C57**, Streebog: the argument is the block. -/
theorem streebog_feedForward (h : List (BitVec 64)) (N : BitVec 64) : FeedForward 8 (· ^^^ ·) fun A => .ok (Streebog.gN h (stores64 A) N) :=
  Proofs.Perm.Streebog.gN_feed h N

/-- **C57**, Skein: the argument is the block; key, tweak and number of bytes are fixed. -/
theorem skein_feedForward (reallen : Nat) (h : Skein.St) :
    (FeedForward 4 (· ^^^ ·) fun A => (Skein.block Skein.f4 reallen (stores64 A) h).map (·.H)) ∧
    (FeedForward 8 (· ^^^ ·) fun A => (Skein.block Skein.f8 reallen (stores64 A) h).map (·.H)) ∧
    FeedForward 16 (· ^^^ ·) fun A => (Skein.block Skein.f16 reallen (stores64 A) h).map (·.H) :=
  ⟨Proofs.Perm.Skein.block_feed Proofs.Skein.f4_ok reallen h, Proofs.Perm.Skein.block_feed Proofs.Skein.f8_ok reallen h,
    Proofs.Perm.Skein.block_feed Proofs.Skein.f16_ok reallen h⟩

/-- **C57**, the consequence: with feed-forward by addition or exclusive or there is exactly one argument that the function leaves as it is. -/
theorem feedForward_fixed_point {w n : Nat} {op : BitVec w → BitVec w → BitVec w} {g : List (BitVec w) → M (List (BitVec w))} (h : FeedForward n op g)
    (hop : op = (· + ·) ∨ op = (· ^^^ ·)) : ∃ A, (A.length = n ∧ g A = .ok A) ∧ ∀ B, B.length = n → g B = .ok B → B = A := by
  rcases hop with rfl | rfl
  · refine Proofs.Perm.fixed_point h (fun x => by simp) fun x y e => ?_
    have e : x + y = x := e
    have := congrArg (· - x) e
    simpa [BitVec.add_comm x y, BitVec.add_sub_cancel] using this
  · refine Proofs.Perm.fixed_point h (fun x => by simp) fun x y e => ?_
    have e : x ^^^ y = x := e
    have := congrArg (x ^^^ ·) e
    simpa [← BitVec.xor_assoc] using this

/-- For the block of SHA-256 made of zeros there is a chaining value that is its own successor, and it is not the initial one. -/
example : ∃ A, A.length = 8 ∧ Sha2.compress Sha2.u32 (List.replicate 64 0) A = A ∧ A ≠ List.replicate 8 0 := by
  obtain ⟨A, ⟨hA, h⟩, _⟩ := feedForward_fixed_point (sha256_feedForward (List.replicate 64 0) rfl) (.inl rfl)
  refine ⟨A, hA, Except.ok.inj h, ?_⟩
  rintro rfl
  exact absurd (Except.ok.inj h) (by decide +kernel)

example : ∃ A, A.length = 4 ∧ Md5.compress (List.replicate 64 5) A = .ok A := by
  obtain ⟨A, h, _⟩ := feedForward_fixed_point (md5_feedForward (List.replicate 64 5) rfl) (.inl rfl)
  exact ⟨A, h⟩

/-- A block of Whirlpool that is the next chaining value. -/
example : ∃ A, A.length = 8 ∧ Whirlpool.compress (stores64 A) (List.replicate 8 3) = A := by
  obtain ⟨A, ⟨hA, h⟩, _⟩ := feedForward_fixed_point (whirlpool_feedForward (List.replicate 8 3)) (.inr rfl)
  exact ⟨A, hA, Except.ok.inj h⟩

end Digestpp.Properties
