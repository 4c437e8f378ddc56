import Verif.Proofs.Late
import Verif.Proofs.CShake
import Verif.Proofs.Kmac
import Verif.Proofs.K12
import Verif.Proofs.Esch

/-! Data absorbed after squeezing has begun: the sponges. -/

namespace Digestpp.Proofs
open Model Spec

/-- Objects in which late bytes count as output given. -/
theorem LateRefines.ofMoving {S P Θ : Type} {pr : XofProvider S P} {f : XofFn P Θ} {c : Cover P Θ} {R : Θ → Bytes → Nat → S → Prop}
    (r : Nat) (h : XofRefines pr f c R)
    (hl : ∀ θ msg n s data, 0 < n % r → n % r + data.length < r → R θ msg n s →
      ∃ s', pr.update data s = .ok s' ∧ R θ msg (n + data.length) s') :
    LateRefines pr f c (.sponge r) R (fun o s => R o.params o.msg o.squeezed s) where
  base := h
  first := fun θ msg s k hR ha h0 h1 h2 => by
    have := h.squeeze θ msg 0 s k hR ha h0 h1 (by rwa [Nat.zero_add])
    rwa [Nat.zero_add] at this
  more := fun o s k _ hR ha h0 h1 h2 => h.squeeze _ _ _ s k hR ha h0 h1 h2
  split := fun o a b ⟨h1, h2⟩ => by
    refine ⟨⟨h1, by omega⟩, ?_⟩
    show 0 < (o.squeezed + a) % r ∧ (o.squeezed + a) % r + b < r
    have : (o.squeezed + a) % r = o.squeezed % r + a := by
      rw [Nat.add_mod, Nat.mod_eq_of_lt (show a < r by omega), Nat.mod_eq_of_lt (by omega)]
    rw [this]
    omega
  late := fun o s data _ hR ⟨h1, h2⟩ => hl _ _ _ s data h1 h2 hR
  init := fun o s hR => h.init _ _ _ s hR
  clear := fun hc o s hR => h.clear hc _ _ _ s hR
  set := fun o s p hR hp => by
    have := h.set _ _ _ s p hR hp
    split at this
    · next e => rw [e]; exact this
    · next e => rw [e]; exact this

/-- Within a block. -/
theorem within (r n a : Nat) (h1 : 0 < n % r) (h2 : n % r + a < r) :
    (n - 1) % r + 1 = n % r ∧ (n + a - 1) % r + 1 = n % r + a ∧ (n + a - 1) / r = (n - 1) / r := by
  have hn := Nat.div_add_mod n r
  have key : ∀ x, 0 < x → x < r → (r * (n / r) + x - 1) % r + 1 = x ∧ (r * (n / r) + x - 1) / r = n / r := by
    intro x hx hxr
    have e : r * (n / r) + x - 1 = (x - 1) + r * (n / r) := by omega
    rw [e, Nat.add_mul_mod_self_left, Nat.add_mul_div_left _ _ (by omega), Nat.mod_eq_of_lt (by omega), Nat.div_eq_of_lt (by omega)]
    omega
  obtain ⟨k1, k2⟩ := key (n % r) h1 (by omega)
  obtain ⟨k3, k4⟩ := key (n % r + a) (by omega) h2
  rw [show r * (n / r) + n % r - 1 = n - 1 by omega] at k1 k2
  rw [show r * (n / r) + (n % r + a) - 1 = n + a - 1 by omega] at k3 k4
  exact ⟨k1, k3, k4.trans k2.symm⟩

namespace Shake
open Digestpp.Model.Shake

theorem late_ok {R r : Nat} (hr : r ≤ 168) {N S : Bytes} {A0 : List (BitVec 64)} {n : Nat} {s : Blk St} (data : Bytes)
    (h1 : 0 < n % r) (h2 : n % r + data.length < r) (h : Squeezing R r N S A0 n s) :
    ∃ s', Model.Shake.update R (8 * r) data s = .ok s' ∧ Squeezing R r N S A0 (n + data.length) s' := by
  obtain ⟨w1, w2, w3⟩ := within r n data.length h1 h2
  have hp := h.pos
  have hm := h.mlen
  unfold Model.Shake.update
  rw [show 8 * r / 8 = r by omega]
  obtain ⟨m', l, e⟩ := absorbBytes_fits r r (onBlocks R (8 * r)) data s (by omega) (by omega) (by omega)
  refine ⟨_, e, ⟨by have := h.n_pos; omega, h.A0len, by rw [← hm]; exact l, ?_, ?_, h.N, h.S, h.sq⟩⟩
  · rw [w3]; exact h.A
  · show s.pos + data.length = _
    omega

theorem rel_late (r : Nat) (hr : r ≤ 168) (θ : Spec.Keccak.CShakeParams) (msg : Bytes) (n : Nat) (s : Blk St) (data : Bytes)
    (h1 : 0 < n % r) (h2 : n % r + data.length < r) (h : Rel r θ msg n s) :
    ∃ s', Model.Shake.update 24 (8 * r) data s = .ok s' ∧ Rel r θ msg (n + data.length) s' := by
  rcases h.2.2 with ⟨rfl, -⟩ | h'
  · rw [Nat.zero_mod] at h1; omega
  · obtain ⟨s', e, k⟩ := late_ok hr data h1 h2 h'
    exact ⟨s', e, h.1, h.2.1, .inr k⟩

theorem lateFull (b : Nat) (hb : b = 128 ∨ b = 256) :
    ∃ Z, LateRefines (Model.Shake.cshake b).pr (Spec.cshakeFull b) ⟨fun _ _ => True, True, prm, fun _ => True⟩
      (.sponge (200 - 2 * b / 8)) (Rel (200 - 2 * b / 8)) Z := by
  obtain ⟨r, hr, he, h8, hr0, h168⟩ := rateOf_eq b hb
  refine ⟨_, LateRefines.ofMoving _ (refinesFull b hb) ?_⟩
  rw [show (Model.Shake.cshake b).pr.update = Model.Shake.update 24 (8 * r) by rw [← he]; rfl, ← hr]
  exact fun θ msg n s data h1 h2 h => rel_late r h168 θ msg n s data h1 h2 h

theorem lateShake (b : Nat) (hb : b = 128 ∨ b = 256) :
    ∃ Z, LateRefines (Model.Shake.shake b).pr (Spec.shake b) (Cover.all Empty)
      (.sponge (200 - 2 * b / 8)) (fun _ => Rel (200 - 2 * b / 8) ⟨[], []⟩) Z := by
  obtain ⟨r, hr, he, h8, hr0, h168⟩ := rateOf_eq b hb
  refine ⟨_, LateRefines.ofMoving _ (refinesShake b hb) ?_⟩
  rw [show (Model.Shake.shake b).pr.update = Model.Shake.update 24 (8 * r) by rw [← he]; rfl, ← hr]
  exact fun _ msg n s data h1 h2 h => rel_late r h168 _ msg n s data h1 h2 h

end Shake

namespace Kmac
open Digestpp.Model.Kmac

theorem late (b : Nat) (hb : b = 128 ∨ b = 256) :
    ∃ Z, LateRefines (Model.Kmac.xofProvider b) (Spec.kmacXofFull b) ⟨fun _ _ => True, True, prm, fun _ => True⟩
      (.sponge (200 - 2 * b / 8)) (Rel (200 - 2 * b / 8) 0 0) Z := by
  obtain ⟨r, hr, he, h8, hr0, h168⟩ := Shake.rateOf_eq b hb
  refine ⟨_, LateRefines.ofMoving _ (refinesXofFull b hb) ?_⟩
  rw [← hr]
  intro θ msg n s data h1 h2 h
  have hn : n ≠ 0 := by rintro rfl; rw [Nat.zero_mod] at h1; omega
  have h5 := h.sh
  rw [if_neg hn] at h5
  obtain ⟨s', e, k⟩ := Shake.rel_late r h168 _ _ n s.shake data h1 h2 h5
  show ∃ s', Model.Kmac.update b data s = .ok s' ∧ _
  unfold Model.Kmac.update
  rw [he, e, ok_bind]
  refine ⟨_, rfl, h.Kl, h.K, h.hs, ?_, ?_⟩
  · rw [h.sq, decide_eq_true (by omega), decide_eq_true (by omega)]
  · rw [if_neg (by omega)]; exact k

end Kmac

namespace Esch
open Digestpp.Model.Esch

theorem late {F : Spec.Esch.Family} {nb hs : Nat} (hF : Sized F nb hs) (rl : Nat) :
    ∃ Z, LateRefines Model.Esch.xofProvider (Spec.Esch.eschXof F) (Cover.all Empty) (.sponge 16) (fun _ => Rx F nb hs rl) Z := by
  refine ⟨_, LateRefines.ofMoving _ (refines_xof hF rl) ?_⟩
  intro _ msg n s data h1 h2 h
  obtain ⟨w1, w2, w3⟩ := within 16 n data.length h1 h2
  have hq := h.2 (by omega)
  have hp := hq.pos
  have hm := hq.mlen
  obtain ⟨m', l, e⟩ := absorbBytes_fits 16 (16 + 1) (transform false) data s (by omega) (by omega) (by omega)
  refine ⟨_, e, fun hc => absurd hc (by omega), fun _ => ⟨by omega, by rw [← hm]; exact l, ?_, ?_, ?_⟩⟩
  · rw [w3]; exact hq.h
  · show s.pos + data.length = _
    omega
  · right
    show s.pos + data.length < 16
    omega

end Esch

namespace K12
open Digestpp.Model.K12
variable {B R r : Nat}

/-- A further squeeze leaves the input buffer alone. -/
theorem squeeze_pos {k : Nat} {s s' : Blk St} {o : Bytes} (hq : s.h.squeezing = true) (h : Model.K12.squeeze B R k s = .ok (o, s')) :
    s'.pos = s.pos := by
  unfold Model.K12.squeeze at h
  have e1 : Model.K12.squeezeFirst B R s = .ok s := by
    unfold Model.K12.squeezeFirst
    rw [hq]; rfl
  rw [e1, ok_bind] at h
  cases e : Model.Shake.squeeze R (Model.Shake.rateOf B) k s.h.main with
  | error _ => rw [e] at h; cases h
  | ok x =>
    rw [e, ok_bind] at h
    cases h
    rfl

/-- The bytes in the input buffer once squeezing has begun. -/
def fill (C msg : Bytes) : Nat := ((msg ++ C ++ Spec.K12.lengthEncode C.length).length - 1) % 8192 + 1

def Z (B R r : Nat) (o : LateObj Bytes) (s : Blk St) : Prop :=
  Rel B R r o.params o.msg o.squeezed s ∧ s.h.squeezing = true ∧ 0 < o.squeezed ∧ s.pos = fill o.params o.msg + o.late

theorem late (b R : Nat) (hb : b = 128 ∨ b = 256) (hR : R ≤ 24) :
    LateRefines (Model.K12.provider b R) (Spec.k12 b R) ⟨fun _ m => m.length < 2 ^ 64, True, prm, fun _ => True⟩ .k12
      (Rel b R (200 - 2 * b / 8)) (Z b R (200 - 2 * b / 8)) := by
  have hp := par b R hb hR
  have hr := refines b R hb hR
  refine ⟨hr, ?_, ?_, ?_, ?_, fun o s h => hr.init _ _ _ s h.1, fun hc o s h => hr.clear hc _ _ _ s h.1, ?_⟩
  · intro C msg s k h hm hk _ _
    rcases h.2 with ⟨-, h0, hi, hc, hS, hq, hb⟩ | ⟨-, -, hn, -⟩
    · obtain ⟨s', e, r⟩ := squeeze_ok hp C msg 0 s k hk hm h
      rw [Nat.zero_add] at r
      refine ⟨s', e, r, ?_⟩
      rcases r.2 with ⟨hk0, -⟩ | ⟨-, q', -, -⟩
      · omega
      refine ⟨q', hk, ?_⟩
      obtain ⟨s1, d, e1, -, -, -, -, -, -, -, hpos⟩ := squeezeFirst_ok hp C h.1 msg h0 hi hc hS hq s hb hm
      unfold Model.K12.squeeze at e
      rw [e1, ok_bind] at e
      show s'.pos = fill C msg + 0
      rw [Nat.add_zero]
      unfold fill
      rw [← hpos]
      cases e2 : Model.Shake.squeeze R (Model.Shake.rateOf b) k s1.h.main with
      | error _ => rw [e2] at e; cases e
      | ok x =>
        rw [e2, ok_bind] at e
        obtain ⟨-, rfl⟩ := Prod.mk.inj (Except.ok.inj e)
        rfl
    · omega
  · intro o s k hn ⟨h, hq, _, hpos⟩ hm hk _ _
    obtain ⟨s', e, r⟩ := squeeze_ok hp o.params o.msg o.squeezed s k hk hm h
    refine ⟨s', e, r, ?_, ?_, (squeeze_pos hq e).trans hpos⟩
    · rcases r.2 with ⟨hk0, -⟩ | ⟨-, q', -, -⟩
      · omega
      · exact q'
    · show 0 < o.squeezed + k
      omega
  · intro o a b' h
    have h : _ + 1 + o.late + (a + b') ≤ 8192 := h
    constructor
    · show _ + 1 + o.late + a ≤ 8192
      omega
    · show ((o.msg ++ o.params ++ Spec.K12.lengthEncode o.params.length).length - 1) % 8192 + 1 + (o.late + a) + b' ≤ 8192
      omega
  · intro o s data hn ⟨h, hq, _, hpos⟩ hf
    have hf : fill o.params o.msg + o.late + data.length ≤ 8192 := hf
    have hfl := h.fields hp
    have hm := hfl.mlen
    obtain ⟨m', l, e⟩ := absorbBytes_fits 8192 8193 (onBlocks b R) data s (by omega) (by omega) (by omega)
    refine ⟨_, e, ⟨h.1, .inr ?_⟩, hq, hn, ?_⟩
    · rcases h.2 with ⟨h0, -⟩ | ⟨-, -, -, hA⟩
      · omega
      · exact ⟨⟨by rw [← hm]; exact l, hfl.S, hfl.main_m, hfl.main_N, hfl.main_S, hfl.child_m, hfl.child_N, hfl.child_S⟩, hq, hn, hA⟩
    · show s.pos + data.length = fill o.params o.msg + (o.late + data.length)
      omega
  · intro o s p h hpp
    cases p with
    | customization v => exact hr.set _ _ _ s (.customization v) h.1 hpp

end K12
end Digestpp.Proofs
