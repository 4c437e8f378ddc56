import Verif.Proofs.Blake
import Verif.Proofs.Conforms
import Verif.Proofs.Validate

/-! C11: BLAKE. -/

namespace Digestpp.Properties
open Model Spec

/-- The member of the BLAKE family with digest size `N`. -/
def blakeOf : Nat → HashFn SaltParam Bytes
  | 224 => Spec.Blake.blake224
  | 256 => Spec.Blake.blake256
  | 384 => Spec.Blake.blake384
  | _ => Spec.Blake.blake512

/-- The same with the numbers of bits taken modulo `2^64`. -/
def blakeWrap : Nat → HashFn SaltParam Bytes
  | 224 => Spec.Blake.fnWith wrap64 Spec.Blake.v256 Spec.Sha2.iv224 false 28
  | 256 => Spec.Blake.fnWith wrap64 Spec.Blake.v256 Spec.Sha2.iv256 true 32
  | 384 => Spec.Blake.fnWith wrap64 Spec.Blake.v512 Spec.Sha2.iv384 false 48
  | _ => Spec.Blake.fnWith wrap64 Spec.Blake.v512 Spec.Sha2.iv512 true 64

private theorem blake_init (N : Nat) (hN : N = 224 ∨ N = 256 ∨ N = 384 ∨ N = 512) :
    ∃ R, Proofs.HashRefines Model.Blake.provider (blakeWrap N) (Cover.all SaltParam) R ∧
      ∀ m : Bytes, m.length = 128 → ∀ pos total,
        ∃ s', Model.Blake.init ⟨⟨List.replicate 12 0, List.replicate 12 0, N⟩, m, pos, total⟩ = .ok s' ∧ R (blakeWrap N).dflt [] s' := by
  rcases hN with rfl | rfl | rfl | rfl
  · exact ⟨_, Proofs.Blake.refines32 224 _ (by decide) (by decide) Proofs.Blake.setIV224, Proofs.Blake.init32 224 _ Proofs.Blake.setIV224⟩
  · exact ⟨_, Proofs.Blake.refines32 256 _ (by decide) (by decide) Proofs.Blake.setIV256, Proofs.Blake.init32 256 _ Proofs.Blake.setIV256⟩
  · exact ⟨_, Proofs.Blake.refines64 384 _ (by decide) (by decide) Proofs.Blake.setIV384, Proofs.Blake.init64 384 _ Proofs.Blake.setIV384⟩
  · exact ⟨_, Proofs.Blake.refines64 512 _ (by decide) (by decide) Proofs.Blake.setIV512, Proofs.Blake.init64 512 _ Proofs.Blake.setIV512⟩

/-- **C46.** `blake(N)` for all messages; bits are counted modulo `2^64`. -/
theorem blake_all_lengths (N : Nat) (hN : N = 224 ∨ N = 256 ∨ N = 384 ∨ N = 512) :
    HashConforms (Model.Blake.blake N) (blakeWrap N) (Cover.all SaltParam) := by
  obtain ⟨R, hR, hi⟩ := blake_init N hN
  refine Proofs.hashConforms (c := Model.Blake.blake N) hR ?_
  intro mem hm
  obtain ⟨s', e, r⟩ := hi mem.m hm mem.pos mem.total
  refine ⟨_, s', ?_, e, r⟩
  show (pure (Model.Blake.new N mem) : M _) = _
  unfold Model.Blake.new
  rw [if_pos ((Proofs.validateList_iff N _).mpr (by omega))]
  rfl

/-- **C46.** `static_size::blake<N>` for all messages. -/
theorem blake_static_all_lengths (N : Nat) (hN : N = 224 ∨ N = 256 ∨ N = 384 ∨ N = 512) :
    HashConforms (Model.Blake.blakeStatic N) (blakeWrap N) (Cover.all SaltParam) := by
  obtain ⟨R, hR, hi⟩ := blake_init N hN
  refine Proofs.hashConforms (c := Model.Blake.blakeStatic N) hR ?_
  intro mem hm
  obtain ⟨s', e, r⟩ := hi mem.m hm mem.pos mem.total
  exact ⟨_, s', rfl, e, r⟩

private theorem wrap_eq (N : Nat) (θ msg : Bytes) (h : msg.length < 2 ^ 61) : (blakeOf N).digest θ msg = (blakeWrap N).digest θ msg := by
  unfold blakeOf blakeWrap
  split
  · exact congrArg (List.take 28) (Proofs.Blake.coreWith_eq _ _ _ _ _ h)
  · exact congrArg (List.take 32) (Proofs.Blake.coreWith_eq _ _ _ _ _ h)
  · exact congrArg (List.take 48) (Proofs.Blake.coreWith_eq _ _ _ _ _ h)
  · exact congrArg (List.take 64) (Proofs.Blake.coreWith_eq _ _ _ _ _ h)

private theorem blakeOf_with (N : Nat) (hN : N = 224 ∨ N = 256 ∨ N = 384 ∨ N = 512) :
    HashFn.mk (blakeWrap N).size (blakeWrap N).dflt (blakeWrap N).set (blakeOf N).digest = blakeOf N := by
  rcases hN with rfl | rfl | rfl | rfl <;> rfl

/-- **C11.** `blake(N)` computes BLAKE-N with the salt last set, for every message of fewer than `2^61` bytes. -/
theorem blake_conforms (N : Nat) (hN : N = 224 ∨ N = 256 ∨ N = 384 ∨ N = 512) :
    HashConforms (Model.Blake.blake N) (blakeOf N) (Cover.below SaltParam (2 ^ 61)) := by
  have := (blake_all_lengths N hN).below (2 ^ 61) (blakeOf N).digest fun θ msg h => wrap_eq N θ msg h
  rw [← blakeOf_with N hN]
  exact this

/-- **C11.** `static_size::blake<N>` computes the same functions. -/
theorem blake_static_conforms (N : Nat) (hN : N = 224 ∨ N = 256 ∨ N = 384 ∨ N = 512) :
    HashConforms (Model.Blake.blakeStatic N) (blakeOf N) (Cover.below SaltParam (2 ^ 61)) := by
  have := (blake_static_all_lengths N hN).below (2 ^ 61) (blakeOf N).digest fun θ msg h => wrap_eq N θ msg h
  rw [← blakeOf_with N hN]
  exact this

/-! The hypotheses can be met; the values are those of the BLAKE submission for the message 00. The salts set first are rejected, and
removed. -/

def blakeMem : Blk Model.Blake.St := ⟨⟨[], [], 5⟩, List.replicate 128 0xaa, 17, 99⟩
def blakeOps : List (HashOp SaltParam) :=
  [.set (.salt [1, 2]), .set (.salt (List.replicate 16 7)), .set (.salt []), .absorb (.ptr [0]), .hexdigest]

example : (Model.Blake.blake 256).Mem blakeMem := rfl
example : (blakeOf 256).Covered (Cover.below SaltParam (2 ^ 61)) blakeOps (blakeOf 256).new :=
  ⟨trivial, trivial, trivial, show 1 < 2 ^ 63 by decide, show 1 < 2 ^ 61 by decide, trivial⟩
example : (Model.Blake.blake 256).trial blakeMem blakeOps = some [.threw, .done, .done, .done,
    .text "0ce8d4ef4dd7cd8d62dfded9d4edb0a774ae6a41929a74da23109e8f11139c87".toList] := by decide +kernel
example : (Model.Blake.blake 512).trial blakeMem blakeOps = some [.threw, .threw, .done, .done,
    .text ("97961587f6d970faba6d2478045de6d1fabd09b61ae50932054d52bc29d31be4" ++
      "ff9102b9f69e2bbdb83be13d4b9c06091e5fa0b48bd081b634058be0ec49beb3").toList] := by decide +kernel

end Digestpp.Properties
