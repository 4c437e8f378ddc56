import Verif.Proofs.Sha3
import Verif.Proofs.Conforms
import Verif.Proofs.Validate

/-! C06: SHA-3. -/

namespace Digestpp.Properties
open Model Spec

private theorem sha3_rate (d : Nat) (hd : d = 224 ∨ d = 256 ∨ d = 384 ∨ d = 512) :
    szSub 1600 (d * 2 % szMod) = 8 * (200 - 2 * d / 8) := by
  obtain rfl | rfl | rfl | rfl := hd <;> rfl

/-- **C06.** `sha3(d)` computes SHA3-d, for messages of any length. -/
theorem sha3_conforms (d : Nat) (hd : d = 224 ∨ d = 256 ∨ d = 384 ∨ d = 512) :
    HashConforms (Model.Sha3.sha3 d) (Spec.sha3 d) (Cover.all Empty) := by
  refine Proofs.hashConforms (c := Model.Sha3.sha3 d) (Proofs.Sha3.refines d hd) ?_
  intro mem hm
  obtain ⟨s', e, r⟩ := Proofs.Sha3.init_ok d (200 - 2 * d / 8)
    { mem with h := { mem.h with hs := d, rate := szSub 1600 (d * 2 % szMod) } } hm rfl (sha3_rate d hd)
  refine ⟨_, s', ?_, e, r⟩
  show (pure (Model.Sha3.new d mem) : M _) = _
  unfold Model.Sha3.new
  rw [if_pos (by obtain rfl | rfl | rfl | rfl := hd <;> rfl)]
  rfl

/-- **C06.** `static_size::sha3<d>` computes the same functions. -/
theorem sha3_static_conforms (d : Nat) (hd : d = 224 ∨ d = 256 ∨ d = 384 ∨ d = 512) :
    HashConforms (Model.Sha3.sha3Static d) (Spec.sha3 d) (Cover.all Empty) := by
  refine Proofs.hashConforms (c := Model.Sha3.sha3Static d) (Proofs.Sha3.refines d hd) ?_
  intro mem hm
  obtain ⟨s', e, r⟩ := Proofs.Sha3.init_ok d (200 - 2 * d / 8)
    { mem with h := { mem.h with hs := d, rate := szSub 1600 (d * 2 % szMod) } } hm rfl (sha3_rate d hd)
  exact ⟨_, s', rfl, e, r⟩

/-! The hypotheses can be met; the values are those of "abc". -/

def sha3Mem : Blk Model.Sha3.St := ⟨⟨[], 5, 3⟩, List.replicate 144 0xaa, 17, 99⟩
def sha3Ops : List (HashOp Empty) := [.absorb (.str [0x61]), .absorb (.iter [0x62, 0x63]), .hexdigest]

example : (Model.Sha3.sha3 256).Mem sha3Mem := rfl
example : (Spec.sha3 256).Covered (Cover.all Empty) sha3Ops (Spec.sha3 256).new :=
  ⟨show 1 < 2 ^ 63 by decide, trivial, trivial, trivial⟩
example : (Model.Sha3.sha3 256).trial sha3Mem sha3Ops = some [.done, .done,
    .text "3a985da74fe225b2045c172d6bd390bd855f086e3e9d525b46bfe24511431532".toList] := by decide +kernel
example : (Model.Sha3.sha3Static 512).trial sha3Mem sha3Ops = some [.done, .done,
    .text "b751850b1a57168a5693cd924b6b096e08f621827444f70d884f5d0240d2712e10e116e9192af3c91a7ec57647e3934057340b4cf408d5a56592f8274eec53f0".toList] := by
  decide +kernel

end Digestpp.Properties
