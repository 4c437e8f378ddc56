import Verif.Proofs.PermKeccak
import Verif.Proofs.PermAscon
import Verif.Proofs.PermEsch
import Verif.Proofs.PermBlake
import Verif.Proofs.PermMd
import Verif.Proofs.PermLsh
import Verif.Proofs.PermJh
import Verif.Proofs.PermEcho
import Verif.Proofs.PermFeed

/-! C56: the rounds are permutations. -/

namespace Digestpp.Properties
open Spec Model

/-- **C56**, Keccak-p[1600] (sha3, shake, cshake, kmac with 24 rounds, k12, m14 with 12 and 14). -/
theorem keccak_permutes (R : Nat) (hR : R ≤ 24) : Permutes 25 (Sha3.permute R) := Proofs.Perm.Keccak.permute_permutes R hR

/-- The zero state is not a fixed point, and it is the image of one state only. -/
example : ∃ A, A.length = 25 ∧ Sha3.permute 24 A = List.replicate 25 0 ∧ A ≠ List.replicate 25 0 := by
  obtain ⟨A, hA, h⟩ := (keccak_permutes 24 (Nat.le_refl 24)).surj (List.replicate 25 0) rfl
  refine ⟨A, hA, h, ?_⟩
  rintro rfl
  exact absurd h (by decide +kernel)

/-- **C56**, Ascon-p[12] (all classes of ascon.hpp). -/
theorem ascon_permutes : Permutes 5 fun H => (List.range 12).foldl Ascon.round H := Proofs.Perm.Ascon.permutes

example : (List.range 12).foldl Ascon.round [0, 0, 0, 0, 0] ≠ (List.range 12).foldl Ascon.round [0, 0, 0, 0, 1] :=
  fun h => absurd (ascon_permutes.inj [0, 0, 0, 0, 0] [0, 0, 0, 0, 1] rfl rfl h) (by decide)

/-- **C56**, Sparkle384 and Sparkle512 (esch, esch_xof), any number of steps. -/
theorem sparkle_permutes (ns : Nat) : Permutes 12 (Esch.sparkle 6 ns) ∧ Permutes 16 (Esch.sparkle 8 ns) :=
  ⟨Proofs.Perm.Esch.permutes Spec.Esch.f256 6 (.inl ⟨rfl, rfl⟩) ns, Proofs.Perm.Esch.permutes Spec.Esch.f384 8 (.inr ⟨rfl, rfl⟩) ns⟩

example : Esch.sparkle 6 11 (List.replicate 12 0) ≠ List.replicate 12 0 := by decide +kernel

/-- **C56**, Threefish with blocks of 256, 512 and 1024 bits (skein): for each key and tweak no undefined behaviour, and a permutation of the blocks. -/
theorem threefish_permutes (keys tweaks : List (BitVec 64)) :
    (Runs 4 fun W => (List.range 9).foldlM (fun G i => Skein.G8 Skein.f4 (2 * i) keys tweaks G) (Skein.start Skein.f4 W keys tweaks)) ∧
    (Runs 8 fun W => (List.range 9).foldlM (fun G i => Skein.G8 Skein.f8 (2 * i) keys tweaks G) (Skein.start Skein.f8 W keys tweaks)) ∧
    (Runs 16 fun W => (List.range 10).foldlM (fun G i => Skein.G8 Skein.f16 (2 * i) keys tweaks G) (Skein.start Skein.f16 W keys tweaks)) :=
  ⟨Proofs.Perm.Skein.runs Proofs.Skein.f4_ok keys tweaks, Proofs.Perm.Skein.runs Proofs.Skein.f8_ok keys tweaks,
    Proofs.Perm.Skein.runs Proofs.Skein.f16_ok keys tweaks⟩

example : ∃ G, (List.range 9).foldlM (fun G i => Skein.G8 Skein.f4 (2 * i) [1, 2, 3, 4, 5] [6, 7, 8] G) (Skein.start Skein.f4 [9, 10, 11, 12] [1, 2, 3, 4, 5] [6, 7, 8])
    = .ok G ∧ G.length = 4 := by
  obtain ⟨f, pf, h⟩ := (threefish_permutes [1, 2, 3, 4, 5] [6, 7, 8]).1
  exact ⟨_, h [9, 10, 11, 12] rfl, pf.length _ rfl⟩

/-- **C56**, the rounds of BLAKE-256, BLAKE-512, BLAKE2s and BLAKE2b on the array `v`, for each block; any number of rounds. -/
theorem blake_permutes (m : List (BitVec 32)) (m' : List (BitVec 64)) (n : Nat) :
    (Permutes 16 fun v => (List.range n).foldl (fun v r => Blake.round (Blake.G Blake.u32 m r) v) v) ∧
    (Permutes 16 fun v => (List.range n).foldl (fun v r => Blake.round (Blake.G Blake.u64 m' r) v) v) ∧
    (Permutes 16 fun v => (List.range n).foldl (fun v r => Blake.round (Blake2.G Blake2.u32 m r) v) v) ∧
    (Permutes 16 fun v => (List.range n).foldl (fun v r => Blake.round (Blake2.G Blake2.u64 m' r) v) v) :=
  ⟨Proofs.Perm.Blake.blake32 m n, Proofs.Perm.Blake.blake64 m' n, Proofs.Perm.Blake.blake2s m n, Proofs.Perm.Blake.blake2b m' n⟩

example : (List.range 10).foldl (fun v r => Blake.round (Blake2.G Blake2.u32 (List.replicate 16 0) r) v) (List.replicate 15 0 ++ [1]) ≠ List.replicate 16 0 := by
  decide +kernel

/-- **C56**, the permutations P and Q of Grøstl, for arrays of any number of words (the code has 8 and 16). -/
theorem groestl_permutes (R : Nat) (A : List (BitVec 64)) :
    (Permutes R fun p => (Groestl.roundsPQ R (p, A)).1) ∧ Permutes R fun q => (Groestl.roundsPQ R (A, q)).2 :=
  ⟨Proofs.Perm.Groestl.P_permutes R A, Proofs.Perm.Groestl.Q_permutes R A⟩

example : (Groestl.roundsPQ 8 (List.replicate 8 0, [])).1 ≠ (Groestl.roundsPQ 8 (1 :: List.replicate 7 0, [])).1 := fun h =>
  absurd ((groestl_permutes 8 []).1.inj (List.replicate 8 0) (1 :: List.replicate 7 0) rfl rfl h) (by decide)

/-- **C56**, the permutations T⊕ and T+ of Kupyna. -/
theorem kupyna_permutes (R : Nat) (hR : R = 8 ∨ R = 16) (A : List (BitVec 64)) :
    (Permutes R fun p => (Kupyna.roundsPQ R (p, A)).1) ∧ Permutes R fun q => (Kupyna.roundsPQ R (A, q)).2 :=
  ⟨Proofs.Perm.Kupyna.P_permutes R hR A, Proofs.Perm.Kupyna.Q_permutes R hR A⟩

example : (Kupyna.roundsPQ 16 ([], List.replicate 16 0)).2 ≠ (Kupyna.roundsPQ 16 ([], 1 :: List.replicate 15 0)).2 := fun h =>
  absurd ((kupyna_permutes 16 (.inr rfl) []).2.inj (List.replicate 16 0) (1 :: List.replicate 15 0) rfl rfl h) (by decide)

/-- **C56**, the block cipher of Whirlpool: for each key a permutation of the states; and the last round key is a permutation of the key. -/
theorem whirlpool_permutes (A : List (BitVec 64)) :
    (Permutes 8 fun s => (Whirlpool.rounds (A, s)).2) ∧ Permutes 8 fun K => (Whirlpool.rounds (K, A)).1 :=
  ⟨Proofs.Perm.Whirlpool.state_permutes A, Proofs.Perm.Whirlpool.key_permutes A⟩

example : (Whirlpool.rounds (List.replicate 8 0, List.replicate 8 0)).2 ≠ (Whirlpool.rounds (List.replicate 8 0, 1 :: List.replicate 7 0)).2 := fun h =>
  absurd ((whirlpool_permutes (List.replicate 8 0)).1.inj (List.replicate 8 0) (1 :: List.replicate 7 0) rfl rfl h) (by decide)

/-- **C56**, the block cipher of Streebog: for each key a permutation of the blocks. -/
theorem streebog_permutes (K : List (BitVec 64)) : Permutes 8 fun A => Streebog.e K (stores64 A) := Proofs.Perm.Streebog.e_permutes K

example : Streebog.e (List.replicate 8 0) (stores64 (List.replicate 8 0)) ≠ Streebog.e (List.replicate 8 0) (stores64 (1 :: List.replicate 7 0)) := fun h =>
  absurd ((streebog_permutes (List.replicate 8 0)).inj (List.replicate 8 0) (1 :: List.replicate 7 0) rfl rfl h) (by decide)

/-- **C56**, ECHO: for each salt and counter, with any number of rounds, a permutation of the arrays of 32 words. -/
theorem echo_permutes (n : Nat) (salt : List (BitVec 64)) (counter : BitVec 64) : Permutes 32 fun h => Echo.rounds n salt h counter :=
  Proofs.Perm.Echo.rounds_permutes n salt counter

example : Echo.rounds 8 [1, 2] (List.replicate 32 0) 3 ≠ Echo.rounds 8 [1, 2] (1 :: List.replicate 31 0) 3 := fun h =>
  absurd ((echo_permutes 8 [1, 2] 3).inj (List.replicate 32 0) (1 :: List.replicate 31 0) rfl rfl h) (by decide)

/-- **C56**, `E8` of JH; and for each block the compression function itself, so that chaining values can be computed backwards. -/
theorem jh_permutes (m : List (BitVec 64)) : (Permutes 16 fun H => [0, 7, 14, 21, 28, 35].foldl Jh.seven H) ∧ Permutes 16 fun H => Jh.compress H m :=
  ⟨Proofs.Perm.Jh.e8_permutes, Proofs.Perm.Jh.compress_permutes m⟩

example : ∃ H, H.length = 16 ∧ Jh.compress H (List.replicate 8 0) = List.replicate 16 0 := (jh_permutes (List.replicate 8 0)).2.surj _ rfl

/-- **C56**, LSH: for each block the compression function permutes the chaining values. -/
theorem lsh_permutes (b b' : Bytes) (hb : b.length = 128) (hb' : b'.length = 256) (h : Lsh.St 32) (h' : Lsh.St 64) :
    (Runs 16 fun cv => (Lsh.compress rotlMasked Lsh.u32 b { h with cv := cv }).map (·.cv)) ∧
    Runs 16 fun cv => (Lsh.compress rotlMasked Lsh.u64 b' { h' with cv := cv }).map (·.cv) :=
  ⟨Proofs.Perm.Lsh.runs Proofs.Lsh.ok32 b hb h, Proofs.Perm.Lsh.runs Proofs.Lsh.ok64 b' hb' h'⟩

example (h : Lsh.St 32) (h' : Lsh.St 64) :
    ∃ cv, cv.length = 16 ∧ (Lsh.compress rotlMasked Lsh.u32 (List.replicate 128 7) { h with cv := cv }).map (·.cv) = .ok (List.replicate 16 0) := by
  obtain ⟨f, pf, e⟩ := (lsh_permutes (List.replicate 128 7) (List.replicate 256 7) List.length_replicate List.length_replicate h h').1
  obtain ⟨cv, hcv, e'⟩ := pf.surj (List.replicate 16 0) rfl
  exact ⟨cv, hcv, e' ▸ e cv hcv⟩

end Digestpp.Properties
