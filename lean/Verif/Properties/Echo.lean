import Verif.Proofs.Echo
import Verif.Proofs.Conforms
import Verif.Proofs.Validate

/-! C23: ECHO. -/

namespace Digestpp.Properties
open Model Spec

private theorem echo_init (N : Nat) (h8 : N % 8 = 0) (hN : N ≤ 512) (mem : Blk Model.Echo.St) (hm : Model.Echo.Mem N mem) :
    ∃ s', Model.Echo.init { mem with h := { mem.h with salt := [0, 0], hs := N } } = .ok s' ∧
      Proofs.Echo.Abs N (Spec.Echo.echoWith wrap64 (N / 8)).dflt [] s' :=
  Proofs.Echo.init_ok N h8 hN (List.replicate 16 0) _ hm.2 ⟨rfl, Proofs.Echo.salt_zero.symm⟩

/-- **C46.** `echo(N)` for all messages: the counter and the length have 64 bits. -/
theorem echo_all_lengths (N : Nat) (h0 : 0 < N) (h8 : N % 8 = 0) (hN : N ≤ 512) :
    HashConforms (Model.Echo.echo N) (Spec.Echo.echoWith wrap64 (N / 8)) (Cover.all SaltParam) := by
  refine Proofs.hashConforms (c := Model.Echo.echo N) (Proofs.Echo.refines N h0 h8 hN) ?_
  intro mem hm
  obtain ⟨s', e, r⟩ := echo_init N h8 hN mem hm
  refine ⟨_, s', ?_, e, r⟩
  show (pure (Model.Echo.new N mem) : M _) = _
  unfold Model.Echo.new
  rw [if_pos ((Proofs.validateMax_iff N 512).mpr (by omega))]
  rfl

/-- **C46.** `static_size::echo<N>` for all messages. -/
theorem echo_static_all_lengths (N : Nat) (h0 : 0 < N) (h8 : N % 8 = 0) (hN : N ≤ 512) :
    HashConforms (Model.Echo.echoStatic N) (Spec.Echo.echoWith wrap64 (N / 8)) (Cover.all SaltParam) := by
  refine Proofs.hashConforms (c := Model.Echo.echoStatic N) (Proofs.Echo.refines N h0 h8 hN) ?_
  intro mem hm
  obtain ⟨s', e, r⟩ := echo_init N h8 hN mem hm
  exact ⟨_, s', rfl, e, r⟩

private theorem echo_short (N : Nat) (salt msg : Bytes) (h : msg.length < 2 ^ 61 - 20) :
    (Spec.Echo.echo (N / 8)).digest salt msg = (Spec.Echo.echoWith wrap64 (N / 8)).digest salt msg :=
  Proofs.Echo.hashWith_eq _ _ (by split <;> simp) salt msg h

/-- **C23.** `echo(N)` computes ECHO-N with the salt last set, for every message of fewer than `2^61 - 20` bytes. -/
theorem echo_conforms (N : Nat) (h0 : 0 < N) (h8 : N % 8 = 0) (hN : N ≤ 512) :
    HashConforms (Model.Echo.echo N) (Spec.Echo.echo (N / 8)) (Cover.below SaltParam (2 ^ 61 - 20)) :=
  (echo_all_lengths N h0 h8 hN).below _ (Spec.Echo.echo (N / 8)).digest fun salt msg h => echo_short N salt msg h

/-- **C23.** `static_size::echo<N>` computes the same functions. -/
theorem echo_static_conforms (N : Nat) (h0 : 0 < N) (h8 : N % 8 = 0) (hN : N ≤ 512) :
    HashConforms (Model.Echo.echoStatic N) (Spec.Echo.echo (N / 8)) (Cover.below SaltParam (2 ^ 61 - 20)) :=
  (echo_static_all_lengths N h0 h8 hN).below _ (Spec.Echo.echo (N / 8)).digest fun salt msg h => echo_short N salt msg h

/-! The hypotheses can be met; the values are those of the ECHO submission for the message CC. The salts set first are rejected, and
removed. -/

def echoMem (hs : Nat) : Blk Model.Echo.St :=
  ⟨⟨List.replicate ((256 - Model.Echo.blockBytes hs) / 8) 5, [], 0⟩, List.replicate (Model.Echo.blockBytes hs) 0xaa, 17, 99⟩
def echoOps : List (HashOp SaltParam) :=
  [.set (.salt [1, 2]), .set (.salt (List.replicate 16 7)), .set (.salt []), .absorb (.ptr [0xcc]), .hexdigest]

example : (Model.Echo.echo 256).Mem (echoMem 256) := ⟨List.length_replicate, List.length_replicate⟩
example : (Spec.Echo.echo 32).Covered (Cover.below SaltParam (2 ^ 61 - 20)) echoOps (Spec.Echo.echo 32).new :=
  ⟨trivial, trivial, trivial, show 1 < 2 ^ 63 by decide, show 1 < 2 ^ 61 - 20 by decide, trivial⟩
example : (Model.Echo.echo 256).trial (echoMem 256) echoOps = some [.threw, .done, .done, .done,
    .text "01c382b5b9d7d10ec36c98785c27eaccfb2f772a7e58b6b97bf62212b8584ae5".toList] := by decide +kernel
example : (Model.Echo.echo 512).trial (echoMem 512) echoOps = some [.threw, .done, .done, .done,
    .text ("dfce37ca6f32ba4c3a72e77bca20e511a39b31a6075815f083db2ecfd5c32cfd" ++
      "6a4e0dd9bd51921199758edd2fe8ed0fa31e06aa821c7030653d15408e8728dd").toList] := by decide +kernel

end Digestpp.Properties
