import Verif.Proofs.Lsh
import Verif.Proofs.Ub
import Verif.Proofs.Conforms
import Verif.Proofs.Validate

/-! C22: LSH. -/

namespace Digestpp.Properties
open Model Spec

/-- **C22** (for machines that reduce shift counts modulo the word size, see `lsh256_undefined`). `lsh256(N)` computes LSH-256-N,
for every whole number of bytes up to 256 bits and every message. -/
theorem lsh256_conforms_masked_partial (N : Nat) (h0 : 0 < N) (h8 : N % 8 = 0) (hN : N ≤ 256) :
    HashConforms (Model.Lsh.lsh rotlMasked Model.Lsh.u32 N) (Spec.Lsh.lsh Spec.Lsh.lsh256 (N / 8)) (Cover.all Empty) := by
  refine Proofs.hashConforms (c := Model.Lsh.lsh rotlMasked Model.Lsh.u32 N) (Proofs.Lsh.refines Proofs.Lsh.ok32 N ⟨h0, hN, h8⟩) ?_
  intro mem hm
  obtain ⟨s', e, r⟩ := Proofs.Lsh.init_ok Proofs.Lsh.ok32 N { mem with h := { mem.h with hs := N } } hm.2 rfl
  refine ⟨_, s', ?_, e, r⟩
  show (pure (Model.Lsh.new N mem) : M _) = _
  unfold Model.Lsh.new
  rw [if_pos ((Proofs.validateMax_iff N _).mpr ⟨h0, h8, hN⟩)]
  rfl

/-- **C22** (same restriction). `lsh512(N)` computes LSH-512-N, for every whole number of bytes up to 512 bits and every message. -/
theorem lsh512_conforms_masked_partial (N : Nat) (h0 : 0 < N) (h8 : N % 8 = 0) (hN : N ≤ 512) :
    HashConforms (Model.Lsh.lsh rotlMasked Model.Lsh.u64 N) (Spec.Lsh.lsh Spec.Lsh.lsh512 (N / 8)) (Cover.all Empty) := by
  refine Proofs.hashConforms (c := Model.Lsh.lsh rotlMasked Model.Lsh.u64 N) (Proofs.Lsh.refines Proofs.Lsh.ok64 N ⟨h0, hN, h8⟩) ?_
  intro mem hm
  obtain ⟨s', e, r⟩ := Proofs.Lsh.init_ok Proofs.Lsh.ok64 N { mem with h := { mem.h with hs := N } } hm.2 rfl
  refine ⟨_, s', ?_, e, r⟩
  show (pure (Model.Lsh.new N mem) : M _) = _
  unfold Model.Lsh.new
  rw [if_pos ((Proofs.validateMax_iff N _).mpr ⟨h0, h8, hN⟩)]
  rfl

/-- **C22** (same restriction). `static_size::lsh256<N>`. -/
theorem lsh256_static_conforms_masked_partial (N : Nat) (h0 : 0 < N) (h8 : N % 8 = 0) (hN : N ≤ 256) :
    HashConforms (Model.Lsh.lshStatic rotlMasked Model.Lsh.u32 N) (Spec.Lsh.lsh Spec.Lsh.lsh256 (N / 8))
      (Cover.all Empty) := by
  refine Proofs.hashConforms (c := Model.Lsh.lshStatic rotlMasked Model.Lsh.u32 N) (Proofs.Lsh.refines Proofs.Lsh.ok32 N ⟨h0, hN, h8⟩) ?_
  intro mem hm
  obtain ⟨s', e, r⟩ := Proofs.Lsh.init_ok Proofs.Lsh.ok32 N { mem with h := { mem.h with hs := N } } hm.2 rfl
  exact ⟨_, s', rfl, e, r⟩

/-- **C22** (same restriction). `static_size::lsh512<N>`. -/
theorem lsh512_static_conforms_masked_partial (N : Nat) (h0 : 0 < N) (h8 : N % 8 = 0) (hN : N ≤ 512) :
    HashConforms (Model.Lsh.lshStatic rotlMasked Model.Lsh.u64 N) (Spec.Lsh.lsh Spec.Lsh.lsh512 (N / 8))
      (Cover.all Empty) := by
  refine Proofs.hashConforms (c := Model.Lsh.lshStatic rotlMasked Model.Lsh.u64 N) (Proofs.Lsh.refines Proofs.Lsh.ok64 N ⟨h0, hN, h8⟩) ?_
  intro mem hm
  obtain ⟨s', e, r⟩ := Proofs.Lsh.init_ok Proofs.Lsh.ok64 N { mem with h := { mem.h with hs := N } } hm.2 rfl
  exact ⟨_, s', rfl, e, r⟩

private theorem init_ub {w : Nat} (T : Model.Lsh.Word w) (hT : T.G.getD 0 0 = 0) (hn : 0 < T.NS / 2) (s : Blk (Model.Lsh.St w)) :
    Model.Lsh.init rotlChecked T s = .error .shift := by
  unfold Model.Lsh.init Model.Lsh.transform forBlocks
  rw [show List.range 1 = [0] from rfl, List.foldlM_cons, Proofs.readBytes_ok _ _ _ (by unfold Model.Lsh.blockBytes; simp),
    Proofs.ok_bind]
  dsimp only
  rw [Proofs.Lsh.compress_ub T hT hn]
  rfl

/-- **C39, refuted**: under the rules of the language, constructing any LSH-256 hasher is undefined behaviour. -/
theorem lsh256_undefined (N : Nat) (h0 : 0 < N) (h8 : N % 8 = 0) (hN : N ≤ 256) (mem) :
    (Model.Lsh.lsh rotlChecked Model.Lsh.u32 N).construct mem = .error .shift := by
  refine Proofs.construct_ub _ mem { mem with h := { mem.h with hs := N } } .shift ?_ (init_ub _ rfl (by decide) _)
  show (pure (Model.Lsh.new N mem) : M _) = _
  unfold Model.Lsh.new
  rw [if_pos ((Proofs.validateMax_iff N _).mpr ⟨h0, h8, hN⟩)]
  rfl

/-- **C39, refuted**: likewise for LSH-512. -/
theorem lsh512_undefined (N : Nat) (h0 : 0 < N) (h8 : N % 8 = 0) (hN : N ≤ 512) (mem) :
    (Model.Lsh.lsh rotlChecked Model.Lsh.u64 N).construct mem = .error .shift := by
  refine Proofs.construct_ub _ mem { mem with h := { mem.h with hs := N } } .shift ?_ (init_ub _ rfl (by decide) _)
  show (pure (Model.Lsh.new N mem) : M _) = _
  unfold Model.Lsh.new
  rw [if_pos ((Proofs.validateMax_iff N _).mpr ⟨h0, h8, hN⟩)]
  rfl

/-! The hypotheses can be met; the values are those of test/testvectors/lsh256_224.txt, lsh512_512.txt for the message 00. -/

def lsh256Mem : Blk (Model.Lsh.St 32) := ⟨⟨List.replicate 16 7, [], [], 5⟩, List.replicate 128 0xaa, 17, 99⟩
def lsh512Mem : Blk (Model.Lsh.St 64) := ⟨⟨List.replicate 16 7, [], [], 5⟩, List.replicate 256 0xaa, 17, 99⟩
def lshOps : List (HashOp Empty) := [.absorb (.ptr [0x00]), .hexdigest]

example : (Model.Lsh.lsh rotlMasked Model.Lsh.u32 224).Mem lsh256Mem := ⟨rfl, rfl⟩
example : (Model.Lsh.lsh rotlMasked Model.Lsh.u64 512).Mem lsh512Mem := ⟨rfl, List.length_replicate⟩
example : (Spec.Lsh.lsh Spec.Lsh.lsh256 (224 / 8)).Covered (Cover.all Empty) lshOps
    (Spec.Lsh.lsh Spec.Lsh.lsh256 (224 / 8)).new :=
  ⟨show 1 < 2 ^ 63 by decide, trivial, trivial⟩
example : (Model.Lsh.lsh rotlMasked Model.Lsh.u32 224).trial lsh256Mem lshOps = some [.done,
    .text "589404d5eacc84faa08d7fd97467da8ca580462737e8e983869a1a54".toList] := by decide +kernel
example : (Model.Lsh.lsh rotlMasked Model.Lsh.u64 512).trial lsh512Mem lshOps = some [.done,
    .text ("48d2daa69672868d4a0d682ab74d3e78db793139283aca408460fac3aae5d958026d24aea841f8302a89ffcad04a0312feb37e0c734e7cbce6b3" ++
      "612202851698").toList] := by
  decide +kernel

end Digestpp.Properties
