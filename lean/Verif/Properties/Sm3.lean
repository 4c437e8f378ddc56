import Verif.Proofs.Sm3
import Verif.Proofs.Ub
import Verif.Proofs.Conforms

/-! C21: SM3. -/

namespace Digestpp.Properties
open Model Spec

/-- **C46.** Longer messages: the length field is the low 64 bits of the length. -/
theorem sm3_all_lengths_masked : HashConforms (Model.Sm3.cls rotlMasked) Spec.Sm3.sm3 (Cover.all Empty) :=
  Proofs.hashConforms (c := Model.Sm3.cls rotlMasked) Proofs.Sm3.refines fun mem h =>
    have ⟨s', e, r⟩ := Proofs.Sm3.init_ok mem h
    ⟨mem, s', rfl, e, r⟩

/-- **C21** (for machines that reduce shift counts modulo the word size, see `sm3_undefined`). `sm3` computes SM3 for messages of
fewer than `2^61` bytes. -/
theorem sm3_conforms_masked_partial : HashConforms (Model.Sm3.cls rotlMasked) Spec.Sm3.sm3 (Cover.below Empty (2 ^ 61)) :=
  sm3_all_lengths_masked.below _ _ fun _ _ _ => rfl

private theorem transform_ub (data : Bytes) (n : Nat) (s : Blk (List (BitVec 32))) (hn : 0 < n) (hd : 64 ≤ data.length) :
    Model.Sm3.transform rotlChecked data n s = .error .shift := by
  obtain ⟨n, rfl⟩ : ∃ k, n = k + 1 := ⟨n - 1, by omega⟩
  unfold Model.Sm3.transform forBlocks
  rw [List.range_succ_eq_map, List.foldlM_cons, Proofs.readBytes_ok _ _ _ (by omega), Proofs.ok_bind]
  dsimp only
  rw [Proofs.Sm3.compress_ub]
  rfl

private theorem zeroRest_ok (m : Bytes) (pos : Nat) (hm : m.length = 64) (hp : pos ≤ 64) :
    ∃ m', zeroRest 64 m pos = .ok m' ∧ m'.length = 64 := by
  unfold zeroRest
  by_cases h : pos = 64
  · rw [if_neg (by omega)]
    exact ⟨m, rfl, hm⟩
  · rw [if_pos h, Proofs.szSub_eq _ _ hp (by decide)]
    unfold memset
    rw [if_pos (by omega)]
    exact ⟨_, rfl, by simp; omega⟩

private theorem tail_ub (s : Blk (List (BitVec 32))) (hm : s.m.length = 64) (hp : s.pos ≤ 56) :
    mdFinalTail 64 56 (fun total => bytes64 (byteswap64 total)) (Model.Sm3.transform rotlChecked) s = .error .shift := by
  unfold mdFinalTail memset
  rw [Proofs.szSub_eq _ _ hp (by decide), if_pos (by omega), Proofs.ok_bind]
  have hb : ∀ x, (bytes64 x).length = 8 := fun _ => rfl
  unfold memcpyTo
  rw [if_pos (by simp [hb]; omega), Proofs.ok_bind]
  exact transform_ub _ _ _ (by decide) (by simp [hb]; omega)

private theorem final_ub (s : Blk (List (BitVec 32))) (hm : s.m.length = 64) (hp : s.pos < 64) :
    Model.Sm3.final rotlChecked s = .error .shift := by
  unfold Model.Sm3.final mdFinal setByte
  rw [if_pos (by omega), Proofs.ok_bind]
  by_cases h : s.pos + 1 > 56
  · rw [if_pos h]
    obtain ⟨m', e, hl⟩ := zeroRest_ok (s.m.set s.pos 0x80) (s.pos + 1) (by simp [hm]) (by omega)
    rw [e, Proofs.ok_bind, transform_ub _ _ _ (by decide) (by omega)]
    rfl
  · rw [if_neg h, tail_ub _ (by simp [hm]) (by dsimp only; omega)]
    rfl

/-- **C39, refuted**: under the rules of the language, hashing any message whatsoever with SM3 is undefined behaviour: every
compression rotates a 32-bit constant by 0, hence shifts it by 32. -/
theorem sm3_undefined (mem) (hm : (Model.Sm3.cls rotlChecked).Mem mem) (msg : Bytes) (hl : msg.length < 2 ^ 63) :
    ∃ s, (Model.Sm3.cls rotlChecked).construct mem = .ok (some s) ∧
      (Model.Sm3.cls rotlChecked).pr.run [.absorb (.ptr msg), .digest] s = .error .shift := by
  refine ⟨_, rfl, ?_⟩
  have hm' : mem.m.length = 64 := hm
  obtain ⟨s, hs⟩ : ∃ s : Blk (List (BitVec 32)), s = { mem with
    h := [0x7380166f, 0x4914b2b9, 0x172442d7, 0xda8a0600, 0xa96f30bc, 0x163138aa, 0xe38dee4d, 0xb0fb0e4e], pos := 0, total := 0 } := ⟨_, rfl⟩
  have hsm : s.m.length = 64 := by rw [hs]; exact hm'
  have hsp : s.pos = 0 := by rw [hs]
  show (Model.Sm3.provider rotlChecked).run _ { mem with
    h := [0x7380166f, 0x4914b2b9, 0x172442d7, 0xda8a0600, 0xa96f30bc, 0x163138aa, 0xe38dee4d, 0xb0fb0e4e], pos := 0, total := 0 } = _
  rw [← hs]
  have hrun : ∀ r, Model.Sm3.update rotlChecked msg s = r → (Model.Sm3.provider rotlChecked).run [.absorb (.ptr msg), .digest] s
      = r >>= fun s' => (Model.Sm3.provider rotlChecked).digestIt s' >>= fun b => pure ([.done, .bytes b], s') := by
    intro r hr
    unfold HashProvider.run HashProvider.step Model.absorb
    show (do
      let (o, s) ← (do let s ← Model.Sm3.update rotlChecked msg s; pure (Obs.done, s))
      let (os, s) ← (Model.Sm3.provider rotlChecked).run [.digest] s
      pure (o :: os, s)) = _
    rw [hr]
    cases r with
    | error e => rfl
    | ok s' =>
      simp only [Proofs.ok_bind, pure_bind, HashProvider.run, HashProvider.step, bind_assoc]
  have hupd : Model.Sm3.update rotlChecked msg s = absorbTail 64 64 (Model.Sm3.transform rotlChecked) msg s := by
    unfold Model.Sm3.update absorbBytes
    rw [if_neg (by omega)]
  by_cases h : 64 ≤ msg.length
  · have hu : Model.Sm3.update rotlChecked msg s = .error .shift := by
      rw [hupd]
      unfold absorbTail
      rw [if_pos h, if_neg (by decide), Proofs.szSub_eq _ _ (by omega) (by unfold szMod; omega), Nat.add_sub_cancel]
      dsimp only
      rw [transform_ub _ _ _ (by omega) h]
      rfl
    refine (hrun _ hu).trans ?_
    rfl
  · have hu : Model.Sm3.update rotlChecked msg s
        = .ok { s with m := msg ++ s.m.drop msg.length, pos := msg.length } := by
      rw [hupd]
      unfold absorbTail
      rw [if_neg h, Proofs.absorbRest_ok _ _ (msg ++ s.m.drop msg.length) (by
        rw [hsp, Proofs.memcpyTo_ok _ _ _ (by omega)]
        simp), hsp, Nat.zero_add]
    refine (hrun _ hu).trans ?_
    rw [Proofs.ok_bind, Proofs.digestIt_ub (Model.Sm3.provider rotlChecked) _ .shift (by show 0 < 256 / 8; decide)
      (final_ub _ (by simp; omega) (by dsimp only; omega))]
    rfl

/-! The hypotheses can be met; the value is that of "abc". -/

def sm3Mem : (Model.Sm3.cls rotlMasked).S := ⟨[], List.replicate 64 0xaa, 17, 99⟩
def sm3Ops : List (HashOp Empty) := [.absorb (.str [0x61]), .absorb (.stream [0x62, 0x63]), .hexdigest]

example : (Model.Sm3.cls rotlMasked).Mem sm3Mem := rfl
example : Spec.Sm3.sm3.Covered (Cover.below Empty (2 ^ 61)) sm3Ops Spec.Sm3.sm3.new :=
  ⟨show 1 < 2 ^ 63 by decide, trivial, show 3 < 2 ^ 61 by decide, trivial⟩
example : (Model.Sm3.cls rotlMasked).trial sm3Mem sm3Ops = some [.done, .done,
    .text "66c7f0f462eeedd9d1f2d46bdc10e4e24167c4875cf2f7a2297da02b8f4ba8e0".toList] := by decide +kernel

end Digestpp.Properties
