import Verif.Proofs.Groestl
import Verif.Proofs.Conforms
import Verif.Proofs.Validate

/-! C16: Grøstl. -/

namespace Digestpp.Properties
open Model Spec

/-- **C46.** `groestl(N)` for all messages: the number of blocks comes from a 64-bit count of bits. -/
theorem groestl_all_lengths (N : Nat) (h0 : 0 < N) (h8 : N % 8 = 0) (hN : N ≤ 512) :
    HashConforms (Model.Groestl.groestl N) (Spec.Groestl.groestlWrap (N / 8)) (Cover.all Empty) := by
  refine Proofs.hashConforms (c := Model.Groestl.groestl N) (Proofs.Groestl.refines N h0 h8 hN) ?_
  intro mem hm
  obtain ⟨s', e, r⟩ := Proofs.Groestl.init_ok N hN { mem with h := { mem.h with hs := N } } hm.2 rfl
  refine ⟨_, s', ?_, e, r⟩
  show (pure (Model.Groestl.new N mem) : M _) = _
  unfold Model.Groestl.new
  rw [if_pos ((Proofs.validateMax_iff N 512).mpr ⟨h0, h8, hN⟩)]
  rfl

/-- **C46.** `static_size::groestl<N>` for all messages. -/
theorem groestl_static_all_lengths (N : Nat) (h0 : 0 < N) (h8 : N % 8 = 0) (hN : N ≤ 512) :
    HashConforms (Model.Groestl.groestlStatic N) (Spec.Groestl.groestlWrap (N / 8)) (Cover.all Empty) := by
  refine Proofs.hashConforms (c := Model.Groestl.groestlStatic N) (Proofs.Groestl.refines N h0 h8 hN) ?_
  intro mem hm
  obtain ⟨s', e, r⟩ := Proofs.Groestl.init_ok N hN { mem with h := { mem.h with hs := N } } hm.2 rfl
  exact ⟨_, s', rfl, e, r⟩

private theorem groestl_short (N : Nat) (msg : Bytes) (h : msg.length < 2 ^ 61 - 256) :
    (Spec.Groestl.groestl (N / 8)).digest () msg = (Spec.Groestl.groestlWrap (N / 8)).digest () msg :=
  Proofs.Groestl.hashWith_eq _ _ (by split <;> simp) msg h

/-- **C16.** `groestl(N)` computes Grøstl-N, for every whole number of bytes up to 512 bits and every message of fewer than
`2^61 - 256` bytes. -/
theorem groestl_conforms (N : Nat) (h0 : 0 < N) (h8 : N % 8 = 0) (hN : N ≤ 512) :
    HashConforms (Model.Groestl.groestl N) (Spec.Groestl.groestl (N / 8)) (Cover.below Empty (2 ^ 61 - 256)) :=
  (groestl_all_lengths N h0 h8 hN).below _ (Spec.Groestl.groestl (N / 8)).digest fun _ msg h => groestl_short N msg h

/-- **C16.** `static_size::groestl<N>` computes the same functions. -/
theorem groestl_static_conforms (N : Nat) (h0 : 0 < N) (h8 : N % 8 = 0) (hN : N ≤ 512) :
    HashConforms (Model.Groestl.groestlStatic N) (Spec.Groestl.groestl (N / 8)) (Cover.below Empty (2 ^ 61 - 256)) :=
  (groestl_static_all_lengths N h0 h8 hN).below _ (Spec.Groestl.groestl (N / 8)).digest fun _ msg h => groestl_short N msg h

/-! The hypotheses can be met; the value is that of test/testvectors/groestl256.txt for the message CC. -/

def groestlMem : Blk Model.Groestl.St := ⟨⟨List.replicate 16 7, 5⟩, List.replicate 128 0xaa, 17, 99⟩
def groestlOps : List (HashOp Empty) := [.absorb (.ptr [0xcc]), .hexdigest]

example : (Model.Groestl.groestl 256).Mem groestlMem := ⟨rfl, rfl⟩
example : (Spec.Groestl.groestl (256 / 8)).Covered (Cover.below Empty (2 ^ 61 - 256)) groestlOps (Spec.Groestl.groestl (256 / 8)).new :=
  ⟨show 1 < 2 ^ 63 by decide, show 1 < 2 ^ 61 - 256 by decide, trivial⟩
example : (Model.Groestl.groestl 256).trial groestlMem groestlOps = some [.done,
    .text "15e2671f0eaf66c0de3093ab7b1e39dc68f945d7002fc5dfd52d60527e7228d1".toList] := by decide +kernel

end Digestpp.Properties
