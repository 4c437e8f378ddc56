import Verif.Proofs.Jh
import Verif.Proofs.Conforms
import Verif.Proofs.Validate

/-! C17: JH. -/

namespace Digestpp.Properties
open Model Spec

/-- **C46.** `jh(N)` for all messages: the length field has the low 64 bits of the length. -/
theorem jh_all_lengths (N : Nat) (h0 : 0 < N) (h8 : N % 8 = 0) (hN : N ≤ 512) :
    HashConforms (Model.Jh.jh N) (Spec.Jh.jhWrap (N / 8)) (Cover.all Empty) := by
  refine Proofs.hashConforms (c := Model.Jh.jh N) (Proofs.Jh.refines N h0 h8 hN) ?_
  intro mem hm
  obtain ⟨s', e, r⟩ := Proofs.Jh.init_ok N hN { mem with h := { mem.h with hs := N } } hm.2 rfl
  refine ⟨_, s', ?_, e, r⟩
  show (pure (Model.Jh.new N mem) : M _) = _
  unfold Model.Jh.new
  rw [if_pos ((Proofs.validateMax_iff N 512).mpr ⟨h0, h8, hN⟩)]
  rfl

/-- **C46.** The same for `static_size::jh<N>`. -/
theorem jh_static_all_lengths (N : Nat) (h0 : 0 < N) (h8 : N % 8 = 0) (hN : N ≤ 512) :
    HashConforms (Model.Jh.jhStatic N) (Spec.Jh.jhWrap (N / 8)) (Cover.all Empty) := by
  refine Proofs.hashConforms (c := Model.Jh.jhStatic N) (Proofs.Jh.refines N h0 h8 hN) ?_
  intro mem hm
  obtain ⟨s', e, r⟩ := Proofs.Jh.init_ok N hN { mem with h := { mem.h with hs := N } } hm.2 rfl
  exact ⟨_, s', rfl, e, r⟩

private theorem jh_eq (n : Nat) (msg : Bytes) (h : msg.length < 2 ^ 61) :
    Spec.Jh.hashWith (fun l => l) n msg = Spec.Jh.hashWith wrap64 n msg := by
  unfold Spec.Jh.hashWith Spec.Jh.pad
  rw [Proofs.wrap64_bits h]

/-- **C17.** `jh(N)` computes JH-N, for every whole number of bytes up to 512 bits and every message of fewer than `2^61` bytes. -/
theorem jh_conforms (N : Nat) (h0 : 0 < N) (h8 : N % 8 = 0) (hN : N ≤ 512) :
    HashConforms (Model.Jh.jh N) (Spec.Jh.jh (N / 8)) (Cover.below Empty (2 ^ 61)) :=
  (jh_all_lengths N h0 h8 hN).below _ (fun _ => Spec.Jh.hashWith (fun l => l) _) fun _ => jh_eq _

/-- **C17.** `static_size::jh<N>` computes the same functions. -/
theorem jh_static_conforms (N : Nat) (h0 : 0 < N) (h8 : N % 8 = 0) (hN : N ≤ 512) :
    HashConforms (Model.Jh.jhStatic N) (Spec.Jh.jh (N / 8)) (Cover.below Empty (2 ^ 61)) :=
  (jh_static_all_lengths N h0 h8 hN).below _ (fun _ => Spec.Jh.hashWith (fun l => l) _) fun _ => jh_eq _

/-- The constant the round constants of the specification start from is what it is described as: `√2 - 1` in 256 bits. -/
theorem jh_sqrt2 : (2 ^ 256 + Spec.Jh.sqrt2.toNat) ^ 2 ≤ 2 * (2 ^ 256) ^ 2 ∧
    2 * (2 ^ 256) ^ 2 < (2 ^ 256 + Spec.Jh.sqrt2.toNat + 1) ^ 2 := by decide

/-! The hypotheses can be met; the value is that of test/testvectors/jh256.txt for the message CC. -/

def jhMem : Blk Model.Jh.St := ⟨⟨List.replicate 16 7, 5⟩, List.replicate 64 0xaa, 17, 99⟩
def jhOps : List (HashOp Empty) := [.absorb (.ptr [0xcc]), .hexdigest]

example : (Model.Jh.jh 256).Mem jhMem := ⟨rfl, rfl⟩
example : (Spec.Jh.jh (256 / 8)).Covered (Cover.below Empty (2 ^ 61)) jhOps (Spec.Jh.jh (256 / 8)).new :=
  ⟨show 1 < 2 ^ 63 by decide, show 1 < 2 ^ 61 by decide, trivial⟩
example : (Model.Jh.jh 256).trial jhMem jhOps = some [.done,
    .text "7b1191f13a2667830142541bfc5918543d2a434c7692e70c3e5e9bbdddb7f581".toList] := by decide +kernel

end Digestpp.Properties
