import Verif.Proofs.Gap
import Verif.Proofs.Ascon
import Verif.Proofs.Esch

/-! Squeezes of length zero: Ascon and Esch. -/

namespace Digestpp.Proofs
open Model Spec

namespace Ascon
open Spec.Ascon
open Model.Ascon (St)

theorem skip_pos (n : Nat) (h : 0 < n) : 0 < skip n := by
  unfold skip
  split <;> omega

theorem length_prefixOf (k : Model.Ascon.Kind) (Z : Bytes) : (prefixOf k Z).length % 8 = 0 := by
  cases k <;> first | rfl | exact length_pre Z

theorem rx_empty {k : Model.Ascon.Kind} {Z msg : Bytes} {s : Blk St} (h : Rx k Z msg 0 s) :
    ∃ s', Model.Ascon.squeeze 0 s = .ok ([], s') ∧ Rx k Z msg (msg.length % 8 + 1) s' := by
  obtain ⟨s', e, q⟩ := squeeze_empty (h.2.1 rfl)
  rw [List.length_append, Nat.add_mod, length_prefixOf, Nat.zero_add, Nat.mod_mod] at q
  exact ⟨s', e, h.1, fun hc => absurd hc (by omega), fun _ => q⟩

theorem rx_empty_next {k : Model.Ascon.Kind} {Z msg : Bytes} {n : Nat} {s : Blk St} (hn : 0 < n) (h : Rx k Z msg n s) :
    ∃ s', Model.Ascon.squeeze 0 s = .ok ([], s') ∧ Rx k Z msg (skip n) s' := by
  obtain ⟨s', e, q⟩ := squeeze_empty_next (h.2.2 hn)
  have := skip_pos n hn
  exact ⟨s', e, h.1, fun hc => absurd hc (by omega), fun _ => q⟩

theorem gap_xof : ∃ Z, GapRefines Model.Ascon.asconXof.pr xof128 (Cover.all Empty)
    ⟨fun _ _ => [], fun _ msg => msg.length % 8 + 1, skip⟩ (fun _ => Rx .xof []) Z :=
  ⟨_, GapRefines.ofSponge (fun _ msg => msg.length % 8 + 1) skip refines_xof (fun _ _ => Nat.succ_pos _) skip_pos
    (fun _ _ _ h _ => rx_empty h) (fun _ _ _ _ hn h _ => rx_empty_next hn h)⟩

theorem gap_cxof : ∃ Z, GapRefines Model.Ascon.asconCxof.pr cxof128 cover
    ⟨fun _ _ => [], fun _ msg => msg.length % 8 + 1, skip⟩ (Rx .cxof) Z :=
  ⟨_, GapRefines.ofSponge (fun _ msg => msg.length % 8 + 1) skip refines_cxof (fun _ _ => Nat.succ_pos _) skip_pos
    (fun _ _ _ h _ => rx_empty h) (fun _ _ _ _ hn h _ => rx_empty_next hn h)⟩

end Ascon

namespace Esch
open Spec.Esch
open Model.Esch (St)

/-- Squeezing has begun and the object is at position `q`. -/
def Zx (F : Family) (nb hs rl : Nat) (msg : Bytes) (q : Nat) (s : Blk St) : Prop :=
  (q = 0 → Fresh nb hs rl (Spec.Esch.absorb F 4 msg) s) ∧ (0 < q → Squeezing F nb hs rl (Spec.Esch.absorb F 4 msg) q s)

theorem Zx.mem {F : Family} {nb hs rl : Nat} (hF : Sized F nb hs) {msg : Bytes} {q : Nat} {s : Blk St} (h : Zx F nb hs rl msg q s) :
    s.m.length = 128 ∧ s.h.H.length = 2 * nb + rl ∧ s.h.hs = hs := by
  by_cases hq : q = 0
  · have := h.1 hq
    refine ⟨this.mlen, ?_, ?_⟩
    · rw [this.h]; exact length_arr hF rl _
    · rw [this.h]
  · exact (h.2 (by omega)).mem hF

theorem gap {F : Family} {nb hs : Nat} (hF : Sized F nb hs) (rl : Nat) :
    GapRefines Model.Esch.xofProvider (Spec.Esch.eschXof F) (Cover.all Empty)
      ⟨fun _ _ => [], fun _ msg => msg.length % 16, id⟩ (fun _ => Rx F nb hs rl) (fun _ => Zx F nb hs rl) := by
  have hpos : ∀ {msg : Bytes} {q : Nat} {s : Blk St}, 0 < q → Squeezing F nb hs rl (Spec.Esch.absorb F 4 msg) q s → Zx F nb hs rl msg q s :=
    fun h0 h => ⟨fun hc => absurd hc (by omega), fun _ => h⟩
  constructor
  · exact refines_xof hF rl
  · intro _ msg s k h _ hk _ _
    obtain ⟨s', e, r⟩ := squeeze_first hF true k hk (h.1 rfl)
    refine ⟨s', e, ?_⟩
    show Zx F nb hs rl msg (0 + k) s'
    rw [Nat.zero_add]
    exact hpos hk r
  · intro _ msg s h _
    obtain ⟨s', e, r1, r2⟩ := squeeze_empty hF true (h.1 rfl)
    exact ⟨s', e, r2, r1⟩
  · intro _ msg q s k h _ hk _ _
    show ∃ s', Model.Esch.squeeze true k s = .ok (slice (Spec.Esch.squeeze F (Spec.Esch.absorb F 4 msg)) q k, s') ∧ _
    by_cases hq : q = 0
    · subst hq
      obtain ⟨s', e, r⟩ := fresh_squeeze hF true k hk (h.1 rfl)
      rw [Nat.zero_add]
      exact ⟨s', e, hpos hk r⟩
    · obtain ⟨s', e, r⟩ := squeeze_next hF true k hk (h.2 (by omega))
      exact ⟨s', e, hpos (by omega) r⟩
  · intro _ msg q s h _
    show ∃ s', _ ∧ Zx F nb hs rl msg q s'
    by_cases hq : q = 0
    · subst hq
      obtain ⟨s', e, r⟩ := fresh_empty hF true (h.1 rfl)
      exact ⟨s', e, fun _ => r, fun hc => absurd hc (by omega)⟩
    · obtain ⟨s', e, r⟩ := squeeze_empty_next hF true (h.2 (by omega))
      exact ⟨s', e, hpos (by omega) r⟩
  · intro _ msg q s h
    obtain ⟨h1, h2, h3⟩ := h.mem hF
    obtain ⟨s', e, r⟩ := init_ok hF rl s h1 h2 h3
    exact ⟨s', e, r.rx⟩
  · intro _ _ msg q s h
    obtain ⟨s1, s2, e1, e2, r⟩ := clear_ok hF s (h.mem hF)
    exact ⟨s1, s2, e1, e2, r.rx⟩
  · nofun

end Esch
end Digestpp.Proofs
