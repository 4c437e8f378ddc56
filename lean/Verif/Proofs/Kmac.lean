import Verif.Model.Kmac
import Verif.Proofs.CShake

/-! The KMAC provider computes (almost) KMAC. -/

namespace Digestpp.Proofs
open Model Spec

namespace Kmac
open Model.Kmac (St)

theorem bytepad_eq (b r : Nat) (hb : b = 128 ∨ b = 256) (hr : r = 200 - 2 * b / 8) (K : Bytes) (hK : K.length < 2 ^ 61) :
    Model.Kmac.bytepad b K = Spec.Keccak.bytepad (Spec.Keccak.encodeString K) r := by
  have hpad : (if b = 128 then 168 else 136) = r := by obtain rfl | rfl := hb <;> rw [hr] <;> rfl
  have hr2 : r = 168 ∨ r = 136 := by omega
  unfold Model.Kmac.bytepad Spec.Keccak.bytepad Spec.Keccak.encodeString
  dsimp only
  have hz : szMod = 2 ^ 64 := rfl
  rw [hpad, Nat.mod_eq_of_lt (by omega : K.length * 8 < szMod), Encode.leftEncode_eq r (by omega), Encode.leftEncode_eq _ (by omega : K.length * 8 < 2 ^ 64),
    Nat.mul_comm K.length, List.append_assoc]
  obtain ⟨z, hzz⟩ : ∃ z, z = Spec.Keccak.leftEncode r ++ (Spec.Keccak.leftEncode (8 * K.length) ++ K) := ⟨_, rfl⟩
  rw [← hzz]
  have hlt := Nat.mod_lt z.length (show 0 < r by omega)
  by_cases h0 : z.length % r = 0
  · rw [h0, Nat.sub_zero, if_neg (fun h => h.2 rfl), Nat.mod_self, List.replicate_zero, List.append_nil]
  · rw [if_pos ⟨by omega, by omega⟩, Nat.mod_eq_of_lt (by omega : r - z.length % r < r)]

/-- What a key contributes. -/
def keyBytes (r : Nat) (θ : KmacParams) : Bytes := Spec.Keccak.bytepad (Spec.Keccak.encodeString θ.K) r

theorem length_keyBytes (r : Nat) (hr0 : 0 < r) (hr : r ≤ 168) (θ : KmacParams) (hK : θ.K.length < 2 ^ 61) :
    (keyBytes r θ).length < 2 ^ 63 := by
  unfold keyBytes Spec.Keccak.bytepad Spec.Keccak.encodeString
  have h1 := Encode.length_leftEncode r (by omega)
  have h2 := Encode.length_leftEncode (8 * θ.K.length) (by omega)
  simp only [List.length_append, List.length_replicate]
  have := Nat.mod_lt (r - ((Spec.Keccak.leftEncode r).length + ((Spec.Keccak.leftEncode (8 * θ.K.length)).length + θ.K.length)) % r) hr0
  omega

def csp (θ : KmacParams) : Spec.Keccak.CShakeParams := ⟨ascii "KMAC", θ.S⟩

/-- `s` has parameters `θ` and output size `hs`, absorbed `msg` and gave `n` bytes of output; `L` is the length to be encoded. -/
structure Rel (r hs L : Nat) (θ : KmacParams) (msg : Bytes) (n : Nat) (s : St) : Prop where
  Kl : θ.K.length < 2 ^ 61
  K : s.K = keyBytes r θ
  hs : s.hs = hs
  sq : s.squeezing = decide (0 < n)
  sh : Shake.Rel r (csp θ) (keyBytes r θ ++ msg ++ if n = 0 then [] else Spec.Keccak.rightEncode L) n s.shake

/-- The fields the object has between calls. -/
theorem init_ok (b r hs L : Nat) (he : Model.Shake.rateOf b = 8 * r) (h8 : r % 8 = 0) (hr0 : 0 < r) (hr : r ≤ 168)
    (θ : KmacParams) (s : St) (hm : s.shake.m.length = 168) (hK : θ.K.length < 2 ^ 61) (hS : θ.S.length < 2 ^ 61)
    (h1 : s.K = keyBytes r θ) (h2 : s.hs = hs) (h3 : s.shake.h.S = θ.S) :
    ∃ s', Model.Kmac.init b s = .ok s' ∧ Rel r hs L θ [] 0 s' := by
  obtain ⟨K, hs', q, sh⟩ := s
  dsimp only at hm h1 h2 h3
  subst h1 h2
  unfold Model.Kmac.init
  dsimp only
  rw [he]
  obtain ⟨s1, e1, r1⟩ := Shake.rel_init r h8 hr0 hr (csp θ) (Model.Shake.setFunctionName (ascii "KMAC") sh) hm rfl h3
    (show (ascii "KMAC").length < 2 ^ 61 by decide) hS
  rw [e1, ok_bind]
  unfold Model.Kmac.update
  dsimp only
  rw [he]
  obtain ⟨s2, e2, r2⟩ := Shake.rel_update r h8 hr0 hr (csp θ) [] s1 (keyBytes r θ) r1 (length_keyBytes r hr0 hr θ hK)
  rw [e2, ok_bind]
  exact ⟨_, rfl, hK, rfl, rfl, rfl, by simpa using r2⟩

theorem update_ok (b r hs L : Nat) (he : Model.Shake.rateOf b = 8 * r) (h8 : r % 8 = 0) (hr0 : 0 < r) (hr : r ≤ 168)
    (θ : KmacParams) (msg : Bytes) (s : St) (data : Bytes) (h : Rel r hs L θ msg 0 s) (hd : data.length < 2 ^ 63) :
    ∃ s', Model.Kmac.update b data s = .ok s' ∧ Rel r hs L θ (msg ++ data) 0 s' := by
  unfold Model.Kmac.update
  have h5 := h.sh
  rw [if_pos rfl, List.append_nil] at h5
  obtain ⟨s2, e2, r2⟩ := Shake.rel_update r h8 hr0 hr (csp θ) _ _ data h5 hd
  rw [he, e2, ok_bind]
  exact ⟨_, rfl, h.Kl, h.K, h.hs, h.sq, by simpa using r2⟩

theorem length_rightEncode (x : Nat) (h : x < 2 ^ 64) : (Spec.Keccak.rightEncode x).length ≤ 9 := by
  have := Encode.byteCount_le x h
  simp only [Spec.Keccak.rightEncode, List.length_append, Encode.length_beBytes, List.length_singleton]
  omega

/-- The output of the last part of `squeeze`. -/
theorem squeeze_shake (r hs L : Nat) (h8 : r % 8 = 0) (hr0 : 0 < r) (hr : r ≤ 168) (θ : KmacParams) (hK : θ.K.length < 2 ^ 61)
    (msg : Bytes) (n : Nat) (sh : Blk Model.Shake.St) (k : Nat) (hk : 0 < k)
    (h : Shake.Rel r (csp θ) (keyBytes r θ ++ msg ++ Spec.Keccak.rightEncode L) n sh) :
    ∃ sh', Model.Shake.squeeze 24 (8 * r) k sh = .ok (slice (kmacStream (Spec.Keccak.cshakeFullStream r) r L θ msg) n k, sh') ∧
      Rel r hs L θ msg (n + k) ⟨keyBytes r θ, hs, true, sh'⟩ := by
  obtain ⟨sh', e, r1⟩ := Shake.rel_squeeze r h8 hr0 hr (csp θ) _ n sh k h hk
  refine ⟨sh', e, hK, rfl, rfl, (decide_eq_true (by omega)).symm, ?_⟩
  rw [if_neg (by omega)]
  exact r1

theorem squeeze_ok (b r hs L : Nat) (he : Model.Shake.rateOf b = 8 * r) (h8 : r % 8 = 0) (hr0 : 0 < r) (hr : r ≤ 168)
    (hL : L < 2 ^ 64) (xof : Bool) (θ : KmacParams) (msg : Bytes) (n : Nat) (s : St) (k : Nat) (hk : 0 < k)
    (hLk : n = 0 → (if !xof then k * 8 % szMod else 0) = L) (h : Rel r hs L θ msg n s) :
    ∃ s', Model.Kmac.squeeze b xof k s
      = .ok (slice (kmacStream (Spec.Keccak.cshakeFullStream r) r L θ msg) n k, s') ∧ Rel r hs L θ msg (n + k) s' := by
  obtain ⟨K, hs', q, sh⟩ := s
  obtain ⟨h1, h2, h3, h4, h5⟩ := h
  dsimp only at h2 h3 h4 h5
  subst h2 h3
  unfold Model.Kmac.squeeze Model.Kmac.squeezeFirst
  dsimp only
  by_cases hn : n = 0
  · have hq : q = false := by rw [h4, hn]; rfl
    rw [hq, if_pos (show (!false) = true from rfl), hLk hn, Encode.rightEncode_eq L hL]
    rw [if_pos hn, List.append_nil] at h5
    unfold Model.Kmac.update
    dsimp only
    subst hn
    obtain ⟨s2, e2, r2⟩ := Shake.rel_update r h8 hr0 hr (csp θ) _ _ (Spec.Keccak.rightEncode L) h5
      (by have := length_rightEncode L hL; omega)
    obtain ⟨s3, e3, r3⟩ := squeeze_shake r hs' L h8 hr0 hr θ h1 msg 0 s2 k hk r2
    rw [he, e2, ok_bind]
    refine ⟨_, ?_, r3⟩
    show (Model.Shake.squeeze 24 (8 * r) k s2 >>= _) = _
    rw [e3]; rfl
  · have hq : q = true := by rw [h4]; exact decide_eq_true (by omega)
    rw [hq, if_neg (by simp)]
    rw [if_neg hn] at h5
    obtain ⟨s3, e3, r3⟩ := squeeze_shake r hs' L h8 hr0 hr θ h1 msg n sh k hk h5
    refine ⟨_, ?_, r3⟩
    show (Model.Shake.squeeze 24 (Model.Shake.rateOf b) k sh >>= _) = _
    rw [he, e3]; rfl

theorem clear_ok (b r hs L : Nat) (hb : b = 128 ∨ b = 256) (hr' : r = 200 - 2 * b / 8) (he : Model.Shake.rateOf b = 8 * r)
    (h8 : r % 8 = 0) (hr0 : 0 < r) (hr : r ≤ 168)
    (θ : KmacParams) (msg : Bytes) (n : Nat) (s : St) (h : Rel r hs L θ msg n s) :
    ∃ s1 s2, Model.Kmac.clear b s = .ok s1 ∧ Model.Kmac.init b s1 = .ok s2 ∧ Rel r hs L ⟨[], []⟩ [] 0 s2 := by
  obtain ⟨s2, e2, r2⟩ := init_ok b r hs L he h8 hr0 hr ⟨[], []⟩ (Model.Kmac.setKey b [] { s with shake :=
    { s.shake with h := { s.shake.h with A := List.replicate 25 0, N := [], S := [] }, m := zeroBytes s.shake.m } })
    (by simpa [Model.Kmac.setKey, zeroBytes] using h.sh.fields.1) (by simp) (by simp)
    (bytepad_eq b r hb hr' [] (by simp)) h.hs rfl
  exact ⟨_, s2, rfl, e2, r2⟩

/-- Setters are covered for strings shorter than `2^61` bytes. -/
def prm : KmacParam → Prop
  | .key v | .customization v => v.length < 2 ^ 61

theorem set_ok (b r hs L : Nat) (hb : b = 128 ∨ b = 256) (hr' : r = 200 - 2 * b / 8) (he : Model.Shake.rateOf b = 8 * r)
    (h8 : r % 8 = 0) (hr0 : 0 < r) (hr : r ≤ 168)
    (θ : KmacParams) (msg : Bytes) (n : Nat) (s : St) (p : KmacParam) (h : Rel r hs L θ msg n s) (hp : prm p) :
    match kmacSet p θ with
    | none => ∃ s', Model.Kmac.set b p s = .ok (true, s') ∧ Rel r hs L θ msg n s'
    | some θ' => ∃ s1 s2, Model.Kmac.set b p s = .ok (false, s1) ∧ Model.Kmac.init b s1 = .ok s2 ∧ Rel r hs L θ' [] 0 s2 := by
  obtain ⟨hm, hN, hS⟩ := h.sh.fields
  cases p with
  | key v =>
    obtain ⟨s2, e2, r2⟩ := init_ok b r hs L he h8 hr0 hr ⟨v, θ.S⟩ (Model.Kmac.setKey b v s) hm hp h.sh.2.1
      (bytepad_eq b r hb hr' v hp) h.hs hS
    exact ⟨_, s2, rfl, e2, r2⟩
  | customization v =>
    obtain ⟨s2, e2, r2⟩ := init_ok b r hs L he h8 hr0 hr ⟨θ.K, v⟩ (Model.Kmac.setCustomization v s) hm h.Kl hp h.K h.hs rfl
    exact ⟨_, s2, rfl, e2, r2⟩

theorem refinesFull (b hs : Nat) (hb : b = 128 ∨ b = 256) (h0 : 0 < hs) (hs8 : hs % 8 = 0) (hs64 : hs < 2 ^ 64) :
    HashRefines (Model.Kmac.provider b) (Spec.kmacFull b hs) ⟨fun _ _ => True, True, prm, fun _ => True⟩
      (fun θ msg s => Rel (200 - 2 * b / 8) hs hs θ msg 0 s) := by
  obtain ⟨r, hr, he, h8, hr0, h168⟩ := Shake.rateOf_eq b hb
  rw [← hr]
  constructor
  · intro θ msg s h
    exact init_ok b r hs hs he h8 hr0 h168 θ s h.sh.fields.1 h.Kl h.sh.2.1 h.K h.hs h.sh.fields.2.2
  · intro θ msg s data h hd
    exact update_ok b r hs hs he h8 hr0 h168 θ msg s data h hd
  · intro θ msg s h _
    show _ = Except.ok (slice (kmacStream (Spec.Keccak.cshakeFullStream (200 - 2 * b / 8)) (200 - 2 * b / 8) hs θ msg) 0 (hs / 8))
    rw [← hr]
    obtain ⟨s', e, -⟩ := squeeze_ok b r hs hs he h8 hr0 h168 hs64 false θ msg 0 s (hs / 8) (by omega)
      (fun _ => by rw [if_pos (by simp), Nat.mod_eq_of_lt (by unfold szMod; omega)]; omega) h
    show Model.Kmac.final b s = _
    unfold Model.Kmac.final
    rw [h.hs, e]; rfl
  · intro _ θ msg s h
    exact clear_ok b r hs hs hb hr he h8 hr0 h168 θ msg 0 s h
  · intro θ msg s h
    show s.hs / 8 = hs / 8
    rw [h.hs]
  · show 0 < hs / 8
    omega
  · intro θ msg s _ _
    exact length_slice _ _ _
  · intro θ msg s p h hp
    have := set_ok b r hs hs hb hr he h8 hr0 h168 θ msg 0 s p h hp
    cases p <;> exact this

theorem refinesXofFull (b : Nat) (hb : b = 128 ∨ b = 256) :
    XofRefines (Model.Kmac.xofProvider b) (Spec.kmacXofFull b) ⟨fun _ _ => True, True, prm, fun _ => True⟩ (Rel (200 - 2 * b / 8) 0 0) := by
  obtain ⟨r, hr, he, h8, hr0, h168⟩ := Shake.rateOf_eq b hb
  rw [← hr]
  constructor
  · intro θ msg n s h
    exact init_ok b r 0 0 he h8 hr0 h168 θ s h.sh.fields.1 h.Kl h.sh.2.1 h.K h.hs h.sh.fields.2.2
  · intro θ msg s data h hd
    exact update_ok b r 0 0 he h8 hr0 h168 θ msg s data h hd
  · intro θ msg n s k h _ hk _ _
    show ∃ s', _ = Except.ok (slice (kmacStream (Spec.Keccak.cshakeFullStream (200 - 2 * b / 8)) (200 - 2 * b / 8) 0 θ msg) n k, s') ∧ _
    rw [← hr]
    exact squeeze_ok b r 0 0 he h8 hr0 h168 (by omega) true θ msg n s k hk (fun _ => rfl) h
  · intro _ θ msg n s h
    exact clear_ok b r 0 0 hb hr he h8 hr0 h168 θ msg n s h
  · intro θ msg n s p h hp
    have := set_ok b r 0 0 hb hr he h8 hr0 h168 θ msg n s p h hp
    cases p <;> exact this

end Kmac
end Digestpp.Proofs
