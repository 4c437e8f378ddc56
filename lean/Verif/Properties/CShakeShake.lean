import Verif.Properties.Shake
import Verif.Catalog
import Verif.Proofs.Laws

/-! C47: cSHAKE without function name and customization. -/

namespace Digestpp.Properties
open Model Spec

/-- The same call on a `shake` object; a setter call becomes the restart it implies. -/
def onShake : XofOp CShakeParam → XofOp Empty
  | .absorb src => .absorb src
  | .squeezeBuf b => .squeezeBuf b
  | .squeeze n => .squeeze n
  | .hexsqueeze n => .hexsqueeze n
  | .reset b => .reset b
  | .set _ => .reset false

private theorem empty_stream (b : Nat) (msg : Bytes) : (Spec.cshakeFull b).stream ⟨[], []⟩ msg = (Spec.shake b).stream () msg := by
  rfl

private theorem run_eq (b : Nat) (ops : List (XofOp CShakeParam)) (hs : ∀ p, .set p ∈ ops → Param.value p = []) :
    ∀ (n k : Nat) (msg : Bytes), n = msg.length → XofFine (XofName.cshake b).limits ops n k →
      ((Spec.cshakeFull b).run ops ⟨⟨[], []⟩, msg, k⟩).1 = ((Spec.shake b).run (ops.map onShake) ⟨(), msg, k⟩).1 ∧
      (Spec.shake b).Covered (Cover.all Empty) (ops.map onShake) ⟨(), msg, k⟩ := by
  induction ops with
  | nil => intro n k msg _ _; exact ⟨rfl, trivial⟩
  | cons op ops ih =>
    intro n k msg hn hf
    have hs' : ∀ p, .set p ∈ ops → Param.value p = [] := fun p hp => hs p (List.mem_cons_of_mem _ hp)
    cases op with
    | absorb src =>
      obtain ⟨i1, i2⟩ := ih hs' _ _ (msg ++ src.contents) (by rw [List.length_append, hn]) hf.2.2
      exact ⟨congrArg (_ :: ·) i1, ⟨hf.1, hf.2.1⟩, i2⟩
    | squeezeBuf d =>
      obtain ⟨i1, i2⟩ := ih hs' _ _ msg hn hf.2.2.2.2
      refine ⟨?_, ⟨trivial, hf.2.1, hf.2.2.1, trivial⟩, i2⟩
      show Obs.buffer (slice ((Spec.cshakeFull b).stream ⟨[], []⟩ msg) k d.length) :: _ = _
      rw [empty_stream]
      exact congrArg (_ :: ·) i1
    | squeeze m =>
      obtain ⟨i1, i2⟩ := ih hs' _ _ msg hn hf.2.2.2.2
      refine ⟨?_, ⟨trivial, hf.2.1, hf.2.2.1, trivial⟩, i2⟩
      show Obs.bytes (slice ((Spec.cshakeFull b).stream ⟨[], []⟩ msg) k m) :: _ = _
      rw [empty_stream]
      exact congrArg (_ :: ·) i1
    | hexsqueeze m =>
      obtain ⟨i1, i2⟩ := ih hs' _ _ msg hn hf.2.2.2.2
      refine ⟨?_, ⟨trivial, hf.2.1, hf.2.2.1, trivial⟩, i2⟩
      show Obs.text (hex (slice ((Spec.cshakeFull b).stream ⟨[], []⟩ msg) k m)) :: _ = _
      rw [empty_stream]
      exact congrArg (_ :: ·) i1
    | reset c =>
      cases c with
      | false =>
        obtain ⟨i1, i2⟩ := ih hs' 0 0 [] rfl hf.2
        exact ⟨congrArg (_ :: ·) i1, fun _ => trivial, i2⟩
      | true =>
        obtain ⟨i1, i2⟩ := ih hs' 0 0 [] rfl hf.2
        exact ⟨congrArg (_ :: ·) i1, fun _ => trivial, i2⟩
    | set p =>
      have e := hs p (List.mem_cons_self ..)
      obtain ⟨i1, i2⟩ := ih hs' 0 0 [] rfl hf.2
      cases p with
      | functionName v =>
        have e : v = [] := e
        subst e
        exact ⟨congrArg (_ :: ·) i1, fun _ => trivial, i2⟩
      | customization v =>
        have e : v = [] := e
        subst e
        exact ⟨congrArg (_ :: ·) i1, fun _ => trivial, i2⟩

/-- **C47.** A `cshake128` or `cshake256` object on which no setters are called, or only with empty strings, shows on every history of calls
what a `shake128` or `shake256` object shows. -/
theorem cshake_empty_is_shake (b : Nat) (hb : b = 128 ∨ b = 256) (ops : List (XofOp CShakeParam))
    (hs : ∀ p, .set p ∈ ops → Param.value p = []) (hf : XofFine (XofName.cshake b).limits ops 0 0)
    (mem : (Model.Shake.cshake b).S) (hm : (Model.Shake.cshake b).Mem mem) (mem' : (Model.Shake.shake b).S)
    (hm' : (Model.Shake.shake b).Mem mem') :
    ∃ os, (Model.Shake.cshake b).trial mem ops = some os ∧ (Model.Shake.shake b).trial mem' (ops.map onShake) = some os := by
  obtain ⟨e, hc⟩ := run_eq b ops hs 0 0 [] rfl hf
  refine ⟨_, Proofs.xofConforms_trial (cshake_conforms_full b hb) mem hm ops ?_, ?_⟩
  · have : ∀ (ops : List (XofOp CShakeParam)) (o : XofObj Keccak.CShakeParams),
        XofFine (XofName.cshake b).limits ops o.msg.length o.squeezed →
        (Spec.cshakeFull b).Covered ⟨fun _ _ => True, True, shortStrings, fun _ => True⟩ ops o := by
      intro ops
      induction ops with
      | nil => intro o _; trivial
      | cons op ops ih =>
        intro o hf
        cases op with
        | absorb src =>
          refine ⟨⟨hf.1, hf.2.1⟩, ih _ ?_⟩
          show XofFine _ ops (o.msg ++ src.contents).length o.squeezed
          rw [List.length_append]; exact hf.2.2
        | squeezeBuf d => exact ⟨⟨trivial, hf.2.1, hf.2.2.1, trivial⟩, ih _ hf.2.2.2.2⟩
        | squeeze d => exact ⟨⟨trivial, hf.2.1, hf.2.2.1, trivial⟩, ih _ hf.2.2.2.2⟩
        | hexsqueeze d => exact ⟨⟨trivial, hf.2.1, hf.2.2.1, trivial⟩, ih _ hf.2.2.2.2⟩
        | reset c => cases c <;> exact ⟨fun _ => trivial, ih _ hf.2⟩
        | set p => cases p <;> exact ⟨hf.1, ih _ hf.2⟩
    exact this ops _ hf
  · exact (Proofs.xofConforms_trial (shake_conforms b hb) mem' hm' _ hc).trans (congrArg some e.symm)

example (mem : (Model.Shake.cshake 256).S) (hm : (Model.Shake.cshake 256).Mem mem) (mem' : (Model.Shake.shake 256).S)
    (hm' : (Model.Shake.shake 256).Mem mem') : ∃ os,
    (Model.Shake.cshake 256).trial mem [.set (.customization []), .absorb (.ptr (ascii "a")), .hexsqueeze 300] = some os ∧
    (Model.Shake.shake 256).trial mem' [.reset false, .absorb (.ptr (ascii "a")), .hexsqueeze 300] = some os :=
  cshake_empty_is_shake 256 (by decide) [.set (.customization []), .absorb (.ptr (ascii "a")), .hexsqueeze 300]
    (by intro p hp; simp at hp; subst hp; rfl)
    (by fine) mem hm mem' hm'

end Digestpp.Properties
