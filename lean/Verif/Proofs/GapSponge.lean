import Verif.Proofs.Gap
import Verif.Proofs.CShake
import Verif.Proofs.Kmac
import Verif.Proofs.K12

/-! Squeezes of length zero: the Keccak sponges. -/

namespace Digestpp.Proofs
open Model Spec

namespace Shake
open Digestpp.Model.Shake

theorem skip_pos (r n : Nat) (h : 0 < n) : 0 < skip r n := by
  unfold skip
  split <;> omega

theorem length_pfx (r : Nat) (hr0 : 0 < r) (θ : Spec.Keccak.CShakeParams) : (pfx r θ).length % r = 0 := by
  unfold pfx
  split
  · exact Nat.zero_mod _
  · unfold Spec.Keccak.bytepadFull
    dsimp only
    rw [List.length_append, List.length_replicate]
    obtain ⟨n, hn⟩ : ∃ n, n = (Spec.Keccak.leftEncode r ++ (Spec.Keccak.encodeString θ.N ++ Spec.Keccak.encodeString θ.S)).length := ⟨_, rfl⟩
    rw [← hn]
    have h1 := Nat.div_add_mod n r
    have h2 := Nat.mod_lt n hr0
    rw [show n + (r - n % r) = r * (n / r + 1) by rw [Nat.mul_add]; omega, Nat.mul_mod_right]

theorem rel_empty (r : Nat) (h8 : r % 8 = 0) (hr0 : 0 < r) (hr : r ≤ 168) (θ : Spec.Keccak.CShakeParams) (msg : Bytes) (s : Blk St)
    (h : Rel r θ msg 0 s) :
    ∃ s', Model.Shake.squeeze 24 (8 * r) 0 s = .ok ([], s') ∧ Rel r θ msg (msg.length % r + 1) s' := by
  rcases h.2.2 with ⟨-, h'⟩ | h'
  · obtain ⟨s', e, h2⟩ := squeeze_empty (by omega) h8 hr0 hr (by rw [if_neg (by simp)]) (by split <;> decide) h'
    refine ⟨s', e, h.1, h.2.1, .inr ?_⟩
    rw [List.length_append, Nat.add_mod, length_pfx r hr0, Nat.zero_add, Nat.mod_mod] at h2
    exact h2
  · exact absurd h'.n_pos (by omega)

theorem rel_empty_next (r : Nat) (hr0 : 0 < r) (hr : r ≤ 168) (θ : Spec.Keccak.CShakeParams) (msg : Bytes) (n : Nat) (s : Blk St)
    (hn : 0 < n) (h : Rel r θ msg n s) :
    ∃ s', Model.Shake.squeeze 24 (8 * r) 0 s = .ok ([], s') ∧ Rel r θ msg (skip r n) s' := by
  rcases h.2.2 with ⟨rfl, -⟩ | h'
  · omega
  · obtain ⟨s', e, h2⟩ := squeeze_empty_next (by omega) hr0 hr h'
    exact ⟨s', e, h.1, h.2.1, .inr h2⟩

theorem gapFull (b : Nat) (hb : b = 128 ∨ b = 256) :
    ∃ Z, GapRefines (Model.Shake.cshake b).pr (Spec.cshakeFull b) ⟨fun _ _ => True, True, prm, fun _ => True⟩
      ⟨fun _ _ => [], fun _ msg => msg.length % (200 - 2 * b / 8) + 1, skip (200 - 2 * b / 8)⟩ (Rel (200 - 2 * b / 8)) Z := by
  have hf := refinesFull b hb
  obtain ⟨r, hr, he, h8, hr0, h168⟩ := rateOf_eq b hb
  have hsq : (Model.Shake.cshake b).pr.squeeze = Model.Shake.squeeze 24 (8 * r) := by rw [← he]; rfl
  rw [← hr] at hf ⊢
  refine ⟨_, GapRefines.ofSponge (fun _ msg => msg.length % r + 1) (skip r) hf (fun _ _ => Nat.succ_pos _) (skip_pos r) ?_ ?_⟩
  · intro θ msg s h _
    rw [hsq]
    exact rel_empty r h8 hr0 h168 θ msg s h
  · intro θ msg n s hn h _
    rw [hsq]
    exact rel_empty_next r hr0 h168 θ msg n s hn h

theorem gapShake (b : Nat) (hb : b = 128 ∨ b = 256) :
    ∃ Z, GapRefines (Model.Shake.shake b).pr (Spec.shake b) (Cover.all Empty)
      ⟨fun _ _ => [], fun _ msg => msg.length % (200 - 2 * b / 8) + 1, skip (200 - 2 * b / 8)⟩
      (fun _ => Rel (200 - 2 * b / 8) ⟨[], []⟩) Z := by
  have hf := refinesShake b hb
  obtain ⟨r, hr, he, h8, hr0, h168⟩ := rateOf_eq b hb
  have hsq : (Model.Shake.shake b).pr.squeeze = Model.Shake.squeeze 24 (8 * r) := by rw [← he]; rfl
  rw [← hr] at hf ⊢
  refine ⟨_, GapRefines.ofSponge (fun _ msg => msg.length % r + 1) (skip r) hf (fun _ _ => Nat.succ_pos _) (skip_pos r) ?_ ?_⟩
  · intro _ msg s h _
    rw [hsq]
    exact rel_empty r h8 hr0 h168 _ msg s h
  · intro _ msg n s hn h _
    rw [hsq]
    exact rel_empty_next r hr0 h168 _ msg n s hn h

end Shake

namespace Kmac
open Digestpp.Model.Kmac

theorem length_keyBytes_mod (r : Nat) (hr0 : 0 < r) (θ : Spec.KmacParams) : (keyBytes r θ).length % r = 0 := by
  unfold keyBytes Spec.Keccak.bytepad
  dsimp only
  rw [List.length_append, List.length_replicate]
  obtain ⟨n, hn⟩ : ∃ n, n = (Spec.Keccak.leftEncode r ++ Spec.Keccak.encodeString θ.K).length := ⟨_, rfl⟩
  rw [← hn]
  have h1 := Nat.div_add_mod n r
  have h2 := Nat.mod_lt n hr0
  by_cases h : n % r = 0
  · rw [h, Nat.sub_zero, Nat.mod_self, Nat.add_zero, h]
  · rw [Nat.mod_eq_of_lt (by omega : r - n % r < r), show n + (r - n % r) = r * (n / r + 1) by rw [Nat.mul_add]; omega,
      Nat.mul_mod_right]

theorem empty_ok (b r hs : Nat) (he : Model.Shake.rateOf b = 8 * r) (h8 : r % 8 = 0) (hr0 : 0 < r) (hr : r ≤ 168)
    (θ : Spec.KmacParams) (msg : Bytes) (s : St) (h : Rel r hs 0 θ msg 0 s) :
    ∃ s', Model.Kmac.squeeze b true 0 s = .ok ([], s') ∧ Rel r hs 0 θ msg ((msg.length + 2) % r + 1) s' := by
  obtain ⟨K, hs', q, sh⟩ := s
  obtain ⟨h1, h2, h3, h4, h5⟩ := h
  dsimp only at h2 h3 h4 h5
  subst h2 h3
  unfold Model.Kmac.squeeze Model.Kmac.squeezeFirst
  dsimp only
  have hq : q = false := by rw [h4]; rfl
  rw [hq, if_pos (show (!false) = true from rfl), if_neg (by simp), Encode.rightEncode_eq 0 (by omega)]
  rw [if_pos rfl, List.append_nil] at h5
  unfold Model.Kmac.update
  dsimp only
  obtain ⟨s2, e2, r2⟩ := Shake.rel_update r h8 hr0 hr (csp θ) _ _ (Spec.Keccak.rightEncode 0) h5 (by decide)
  obtain ⟨s3, e3, r3⟩ := Shake.rel_empty r h8 hr0 hr (csp θ) _ s2 r2
  rw [he, e2, ok_bind]
  have hl : (keyBytes r θ ++ msg ++ Spec.Keccak.rightEncode 0).length % r = (msg.length + 2) % r := by
    rw [List.length_append, List.length_append, show (Spec.Keccak.rightEncode 0).length = 2 from by decide, Nat.add_assoc,
      Nat.add_mod, length_keyBytes_mod r hr0, Nat.zero_add, Nat.mod_mod]
  rw [hl] at r3
  refine ⟨⟨keyBytes r θ, hs', true, s3⟩, ?_, h1, rfl, rfl, (decide_eq_true (by omega)).symm, ?_⟩
  · show (Model.Shake.squeeze 24 (8 * r) 0 s2 >>= _) = _
    rw [e3]; rfl
  · rw [if_neg (by omega)]
    exact r3

theorem empty_next_ok (b r hs : Nat) (he : Model.Shake.rateOf b = 8 * r) (hr0 : 0 < r) (hr : r ≤ 168)
    (θ : Spec.KmacParams) (msg : Bytes) (n : Nat) (s : St) (hn : 0 < n) (h : Rel r hs 0 θ msg n s) :
    ∃ s', Model.Kmac.squeeze b true 0 s = .ok ([], s') ∧ Rel r hs 0 θ msg (Shake.skip r n) s' := by
  obtain ⟨K, hs', q, sh⟩ := s
  obtain ⟨h1, h2, h3, h4, h5⟩ := h
  dsimp only at h2 h3 h4 h5
  subst h2 h3
  unfold Model.Kmac.squeeze Model.Kmac.squeezeFirst
  dsimp only
  have hq : q = true := by rw [h4]; exact decide_eq_true (by omega)
  rw [hq, if_neg (by simp)]
  rw [if_neg (by omega)] at h5
  obtain ⟨s3, e3, r3⟩ := Shake.rel_empty_next r hr0 hr (csp θ) _ n sh hn h5
  have hp := Shake.skip_pos r n hn
  refine ⟨⟨keyBytes r θ, hs', true, s3⟩, ?_, h1, rfl, rfl, (decide_eq_true (by omega)).symm, ?_⟩
  · show (Model.Shake.squeeze 24 (Model.Shake.rateOf b) 0 sh >>= _) = _
    rw [he, e3]; rfl
  · rw [if_neg (by omega)]
    exact r3

theorem gap (b : Nat) (hb : b = 128 ∨ b = 256) :
    ∃ Z, GapRefines (Model.Kmac.xofProvider b) (Spec.kmacXofFull b) ⟨fun _ _ => True, True, prm, fun _ => True⟩
      ⟨fun _ _ => [], fun _ msg => (msg.length + 2) % (200 - 2 * b / 8) + 1, Shake.skip (200 - 2 * b / 8)⟩ (Rel (200 - 2 * b / 8) 0 0) Z := by
  have hf := refinesXofFull b hb
  obtain ⟨r, hr, he, h8, hr0, h168⟩ := Shake.rateOf_eq b hb
  rw [← hr] at hf ⊢
  refine ⟨_, GapRefines.ofSponge (fun _ msg => (msg.length + 2) % r + 1) (Shake.skip r) hf (fun _ _ => Nat.succ_pos _)
    (Shake.skip_pos r) ?_ ?_⟩
  · intro θ msg s h _
    exact empty_ok b r 0 he h8 hr0 h168 θ msg s h
  · intro θ msg n s hn h _
    exact empty_next_ok b r 0 he hr0 h168 θ msg n s hn h

end Kmac

namespace K12
open Digestpp.Model.K12

variable {B R r : Nat}

/-- The length of what the last sponge has absorbed. -/
def lastLength (R r c : Nat) (C msg : Bytes) : Nat := (lastNode R r c (msg ++ C ++ Spec.K12.lengthEncode C.length)).length

theorem empty_ok (hp : Par B R r) (C msg : Bytes) (s : Blk St) (hm : msg.length < 2 ^ 64) (h : Rel B R r C msg 0 s) :
    ∃ s', Model.K12.squeeze B R 0 s = .ok ([], s') ∧ Rel B R r C msg (lastLength R r (B / 4) C msg % r + 1) s' := by
  unfold Model.K12.squeeze
  rcases h.2 with ⟨-, h0, hi, hc, hS, hq, hb⟩ | ⟨hf, hq, hn, hA⟩
  · obtain ⟨s1, d, e1, f1, q1, hd, X, a1, hX, hXe, -⟩ := squeezeFirst_ok hp C h.1 msg h0 hi hc hS hq s hb hm
    obtain ⟨m2, e2, r2⟩ := Shake.squeeze_empty hp.R24 hp.r8 hp.r0 hp.r168 (d := d)
      (by obtain rfl | rfl := hd <;> decide) (by obtain rfl | rfl := hd <;> decide) a1
    rw [e1, ok_bind, hp.rate, e2, ok_bind]
    refine ⟨_, rfl, h.1, .inr ⟨⟨f1.mlen, f1.S, r2.mlen, r2.N, r2.S, f1.child_m, f1.child_N, f1.child_S⟩, q1, by omega, fun _ => ?_⟩⟩
    unfold lastLength
    rw [← hXe]
    exact ⟨_, r2, hX⟩
  · omega

theorem empty_next_ok (hp : Par B R r) (C msg : Bytes) (n : Nat) (s : Blk St) (hn : 0 < n) (hm : msg.length < 2 ^ 64)
    (h : Rel B R r C msg n s) :
    ∃ s', Model.K12.squeeze B R 0 s = .ok ([], s') ∧ Rel B R r C msg (Shake.skip r n) s' := by
  unfold Model.K12.squeeze
  rcases h.2 with ⟨rfl, -⟩ | ⟨hf, hq, hn, hA⟩
  · omega
  · obtain ⟨A0, hA, hst⟩ := hA hm
    obtain ⟨m2, e2, r2⟩ := Shake.squeeze_empty_next hp.R24 hp.r0 hp.r168 hA
    have e1 : Model.K12.squeezeFirst B R s = .ok s := by
      unfold Model.K12.squeezeFirst
      rw [hq]; rfl
    rw [e1, ok_bind, hp.rate, e2, ok_bind]
    exact ⟨_, rfl, h.1, .inr ⟨⟨hf.mlen, hf.S, r2.mlen, r2.N, r2.S, hf.child_m, hf.child_N, hf.child_S⟩, hq, Shake.skip_pos r n hn,
      fun _ => ⟨A0, r2, hst⟩⟩⟩

theorem gap (b R : Nat) (hb : b = 128 ∨ b = 256) (hR : R ≤ 24) :
    ∃ Z, GapRefines (Model.K12.provider b R) (Spec.k12 b R) ⟨fun _ m => m.length < 2 ^ 64, True, prm, fun _ => True⟩
      ⟨fun _ _ => [], fun C msg => lastLength R (200 - 2 * b / 8) (b / 4) C msg % (200 - 2 * b / 8) + 1, Shake.skip (200 - 2 * b / 8)⟩
      (Rel b R (200 - 2 * b / 8)) Z := by
  have hp := par b R hb hR
  refine ⟨_, GapRefines.ofSponge _ (Shake.skip (200 - 2 * b / 8)) (refines b R hb hR) (fun _ _ => Nat.succ_pos _)
    (Shake.skip_pos _) ?_ ?_⟩
  · intro C msg s h hm
    exact empty_ok hp C msg s hm h
  · intro C msg n s hn h hm
    exact empty_next_ok hp C msg n s hn hm h

end K12
end Digestpp.Proofs
