import Verif.Proofs.Shake
import Verif.Proofs.Encode

/-! The SHAKE provider computes SHAKE and (almost) cSHAKE. -/

namespace Digestpp.Proofs
open Model Spec

namespace Shake
open Model.Shake (St)
open Spec.Keccak (CShakeParams)

/-- What `init` absorbs. -/
def pfx (r : Nat) (θ : CShakeParams) : Bytes :=
  if θ.N = [] ∧ θ.S = [] then []
  else Spec.Keccak.bytepadFull (Spec.Keccak.encodeString θ.N ++ Spec.Keccak.encodeString θ.S) r

theorem updateString_ok {R r : Nat} (hR : R ≤ 24) (h8 : r % 8 = 0) (hr0 : 0 < r) (hr : r ≤ 168) {N S raw : Bytes} {suf : Byte}
    {s : Blk St} (data : Bytes) (h : Absorbing R r N S suf raw s) (hd : data.length < 2 ^ 63) :
    ∃ s', Model.Shake.updateString R (8 * r) data s = .ok s' ∧ Absorbing R r N S suf (raw ++ data) s' := by
  unfold Model.Shake.updateString
  cases data with
  | nil => exact ⟨s, rfl, by rwa [List.append_nil]⟩
  | cons x t =>
    rw [if_neg (by simp)]
    exact update_ok hR h8 hr0 hr _ h hd

theorem memset_zeros (n z : Nat) (h : z ≤ n) :
    memset (List.replicate n (0 : Byte)) 0 0 z = .ok (List.replicate n 0) := by
  unfold memset
  rw [if_pos (by simpa using h)]
  congr 1
  simp only [List.take_zero, List.nil_append, Nat.zero_add, List.drop_replicate, List.replicate_append_replicate]
  congr 1; omega

theorem read_zeros (n z : Nat) (h : z ≤ n) : readBytes (List.replicate n (0 : Byte)) 0 z = .ok (List.replicate z 0) := by
  rw [readBytes_ok _ _ _ (by simpa using h), List.drop_zero, List.take_replicate]
  congr 2; omega

theorem init_ok {R r : Nat} (hR : R ≤ 24) (h8 : r % 8 = 0) (hr0 : 0 < r) (hr : r ≤ 168) (s : Blk St) (hm : s.m.length = 168)
    (hN : s.h.N.length < 2 ^ 61) (hS : s.h.S.length < 2 ^ 61) :
    ∃ s', Model.Shake.init R (8 * r) s = .ok s' ∧ Absorbing R r s.h.N s.h.S 0 (pfx r ⟨s.h.N, s.h.S⟩) s' := by
  obtain ⟨⟨A, N, S, q, suf⟩, m, pos, total⟩ := s
  dsimp only at hm hN hS
  have r0 := initFields_ok R r ⟨⟨A, N, S, q, suf⟩, m, pos, total⟩ hm
  dsimp only at r0
  unfold Model.Shake.init pfx
  dsimp only
  by_cases hc : N = [] ∧ S = []
  · rw [if_neg (by obtain ⟨rfl, rfl⟩ := hc; simp), if_pos hc]
    exact ⟨_, rfl, r0⟩
  · rw [if_neg hc, if_pos (by
      cases N with
      | cons => rfl
      | nil =>
        cases S with
        | cons => rfl
        | nil => exact absurd ⟨rfl, rfl⟩ hc)]
    obtain ⟨s0, hs0⟩ : ∃ s0, s0 = Model.Shake.initFields ⟨⟨A, N, S, q, suf⟩, m, pos, total⟩ := ⟨_, rfl⟩
    rw [← hs0] at r0 ⊢
    unfold Model.Shake.initPrefix
    have hfN : s0.h.N = N := by rw [hs0]; rfl
    have hfS : s0.h.S = S := by rw [hs0]; rfl
    dsimp only
    rw [hfN, hfS]
    have e8 : 8 * r / 8 = r := by omega
    have hz : szMod = 2 ^ 64 := rfl
    rw [e8, Nat.mod_eq_of_lt (by omega : N.length * 8 < szMod), Nat.mod_eq_of_lt (by omega : S.length * 8 < szMod),
      Encode.leftEncode_eq r (by omega), Encode.leftEncode_eq _ (by omega : N.length * 8 < 2 ^ 64),
      Encode.leftEncode_eq _ (by omega : S.length * 8 < 2 ^ 64), Nat.mul_comm N.length, Nat.mul_comm S.length]
    obtain ⟨b1, hb1⟩ : ∃ b, b = Spec.Keccak.leftEncode r := ⟨_, rfl⟩
    obtain ⟨b2, hb2⟩ : ∃ b, b = Spec.Keccak.leftEncode (8 * N.length) := ⟨_, rfl⟩
    obtain ⟨b3, hb3⟩ : ∃ b, b = Spec.Keccak.leftEncode (8 * S.length) := ⟨_, rfl⟩
    have l1 : b1.length ≤ 9 := by rw [hb1]; exact Encode.length_leftEncode _ (by omega)
    have l2 : b2.length ≤ 9 := by rw [hb2]; exact Encode.length_leftEncode _ (by omega)
    have l3 : b3.length ≤ 9 := by rw [hb3]; exact Encode.length_leftEncode _ (by omega)
    unfold Spec.Keccak.bytepadFull Spec.Keccak.encodeString
    rw [← hb1, ← hb2, ← hb3]
    obtain ⟨s1, e1, r1⟩ := update_ok hR h8 hr0 hr b1 r0 (by omega)
    rw [e1, ok_bind]
    obtain ⟨s2, e2, r2⟩ := update_ok hR h8 hr0 hr b2 r1 (by omega)
    rw [e2, ok_bind]
    obtain ⟨s3, e3, r3⟩ := updateString_ok hR h8 hr0 hr N r2 (by omega)
    rw [e3, ok_bind]
    obtain ⟨s4, e4, r4⟩ := update_ok hR h8 hr0 hr b3 r3 (by omega)
    rw [e4, ok_bind]
    obtain ⟨s5, e5, r5⟩ := updateString_ok hR h8 hr0 hr S r4 (by omega)
    rw [e5, ok_bind]
    have hlen : (b1 ++ (b2 ++ N ++ (b3 ++ S))).length = b1.length + b2.length + b3.length + S.length + N.length := by
      simp only [List.length_append]; omega
    rw [Nat.mod_eq_of_lt (by omega : b1.length + b2.length + b3.length + S.length + N.length < szMod), ← hlen]
    obtain ⟨z, hzz⟩ : ∃ z, z = r - (b1 ++ (b2 ++ N ++ (b3 ++ S))).length % r := ⟨_, rfl⟩
    dsimp only
    rw [← hzz]
    have hz2 : z ≤ 168 := by omega
    have hms := memset_zeros 1024 z (by omega)
    have hrd := read_zeros 1024 z (by omega)
    rw [hms, ok_bind, hrd, ok_bind]
    obtain ⟨s6, e6, r6⟩ := update_ok hR h8 hr0 hr (List.replicate z 0) r5 (by simp; omega)
    refine ⟨s6, e6, ?_⟩
    simpa only [List.nil_append, List.append_assoc] using r6

/-- `s` has parameters `θ`, absorbed `msg` and gave `n` bytes of output. -/
def Rel (r : Nat) (θ : CShakeParams) (msg : Bytes) (n : Nat) (s : Blk St) : Prop :=
  θ.N.length < 2 ^ 61 ∧ θ.S.length < 2 ^ 61 ∧
  (n = 0 ∧ Absorbing 24 r θ.N θ.S 0 (pfx r θ ++ msg) s ∨
    Squeezing 24 r θ.N θ.S (Spec.Keccak.absorb 24 r (Spec.Keccak.padD r (if θ.N = [] ∧ θ.S = [] then 0x1f else 0x04) (pfx r θ ++ msg)))
      n s)

theorem stream_eq (r : Nat) (hr0 : 0 < r) (θ : CShakeParams) (msg : Bytes) : Spec.Keccak.cshakeFullStream r θ msg
    = Spec.Keccak.squeeze 24 r (Spec.Keccak.absorb 24 r (Spec.Keccak.padD r (if θ.N = [] ∧ θ.S = [] then 0x1f else 0x04)
        (pfx r θ ++ msg))) := by
  unfold Spec.Keccak.cshakeFullStream pfx Spec.Keccak.keccak
  by_cases hc : θ.N = [] ∧ θ.S = []
  · rw [if_pos hc, if_pos hc, if_pos hc, Keccak.padded_shake r msg hr0]; rfl
  · rw [if_neg hc, if_neg hc, if_neg hc, Keccak.padded_cshake r _ hr0]

theorem Rel.fields {r : Nat} {θ : CShakeParams} {msg : Bytes} {n : Nat} {s : Blk St} (h : Rel r θ msg n s) :
    s.m.length = 168 ∧ s.h.N = θ.N ∧ s.h.S = θ.S := by
  rcases h.2.2 with ⟨-, h⟩ | h
  · rw [h.fields]; exact ⟨h.mlen, rfl, rfl⟩
  · exact ⟨h.mlen, h.N, h.S⟩

theorem rel_init (r : Nat) (h8 : r % 8 = 0) (hr0 : 0 < r) (hr : r ≤ 168) (θ : CShakeParams) (s : Blk St) (hm : s.m.length = 168)
    (hN : s.h.N = θ.N) (hS : s.h.S = θ.S) (hNl : θ.N.length < 2 ^ 61) (hSl : θ.S.length < 2 ^ 61) :
    ∃ s', Model.Shake.init 24 (8 * r) s = .ok s' ∧ Rel r θ [] 0 s' := by
  obtain ⟨s', e, h⟩ := init_ok (R := 24) (by omega) h8 hr0 hr s hm (by rw [hN]; exact hNl) (by rw [hS]; exact hSl)
  rw [hN, hS] at h
  exact ⟨s', e, hNl, hSl, .inl ⟨rfl, by rw [List.append_nil]; exact h⟩⟩

theorem rel_update (r : Nat) (h8 : r % 8 = 0) (hr0 : 0 < r) (hr : r ≤ 168) (θ : CShakeParams) (msg : Bytes) (s : Blk St) (data : Bytes)
    (h : Rel r θ msg 0 s) (hd : data.length < 2 ^ 63) :
    ∃ s', Model.Shake.update 24 (8 * r) data s = .ok s' ∧ Rel r θ (msg ++ data) 0 s' := by
  rcases h.2.2 with ⟨-, h'⟩ | h'
  · obtain ⟨s', e, h2⟩ := update_ok (by omega) h8 hr0 hr data h' hd
    exact ⟨s', e, h.1, h.2.1, .inl ⟨rfl, by rw [← List.append_assoc]; exact h2⟩⟩
  · exact absurd h'.n_pos (by omega)

theorem rel_squeeze (r : Nat) (h8 : r % 8 = 0) (hr0 : 0 < r) (hr : r ≤ 168) (θ : CShakeParams) (msg : Bytes) (n : Nat) (s : Blk St)
    (k : Nat) (h : Rel r θ msg n s) (hk : 0 < k) :
    ∃ s', Model.Shake.squeeze 24 (8 * r) k s = .ok (slice (Spec.Keccak.cshakeFullStream r θ msg) n k, s') ∧ Rel r θ msg (n + k) s' := by
  rw [stream_eq r hr0]
  rcases h.2.2 with ⟨rfl, h'⟩ | h'
  · obtain ⟨s', e, h2⟩ := squeeze_first (by omega) h8 hr0 hr k hk (by rw [if_neg (by simp)])
      (by split <;> decide) h'
    exact ⟨s', e, h.1, h.2.1, .inr (by rw [Nat.zero_add]; exact h2)⟩
  · obtain ⟨s', e, h2⟩ := squeeze_next (by omega) hr0 hr k hk h'
    exact ⟨s', e, h.1, h.2.1, .inr h2⟩

theorem rel_clear (r : Nat) (h8 : r % 8 = 0) (hr0 : 0 < r) (hr : r ≤ 168) (θ : CShakeParams) (msg : Bytes) (n : Nat) (s : Blk St)
    (h : Rel r θ msg n s) :
    ∃ s1 s2, Model.Shake.clear s = .ok s1 ∧ Model.Shake.init 24 (8 * r) s1 = .ok s2 ∧ Rel r ⟨[], []⟩ [] 0 s2 := by
  obtain ⟨s2, e, h2⟩ := rel_init r h8 hr0 hr ⟨[], []⟩
    { s with h := { s.h with A := List.replicate 25 0, N := [], S := [] }, m := zeroBytes s.m }
    (by simpa [zeroBytes] using h.fields.1) rfl rfl (by simp) (by simp)
  exact ⟨_, s2, rfl, e, h2⟩

/-- Setters are covered for strings shorter than `2^61` bytes. -/
def prm : CShakeParam → Prop
  | .functionName v | .customization v => v.length < 2 ^ 61

/-- The bytes of rate. -/
theorem rateOf_eq (b : Nat) (hb : b = 128 ∨ b = 256) :
    ∃ r, r = 200 - 2 * b / 8 ∧ Model.Shake.rateOf b = 8 * r ∧ r % 8 = 0 ∧ 0 < r ∧ r ≤ 168 := by
  obtain rfl | rfl := hb <;> exact ⟨_, rfl, rfl, by decide, by decide, by decide⟩

theorem refinesFull (b : Nat) (hb : b = 128 ∨ b = 256) :
    XofRefines (Model.Shake.cshake b).pr (Spec.cshakeFull b) ⟨fun _ _ => True, True, prm, fun _ => True⟩ (Rel (200 - 2 * b / 8)) := by
  obtain ⟨r, hr, he, h8, hr0, h168⟩ := rateOf_eq b hb
  have hi : (Model.Shake.cshake b).pr.init = Model.Shake.init 24 (8 * r) := by rw [← he]; rfl
  have hu : (Model.Shake.cshake b).pr.update = Model.Shake.update 24 (8 * r) := by rw [← he]; rfl
  have hsq : (Model.Shake.cshake b).pr.squeeze = Model.Shake.squeeze 24 (8 * r) := by rw [← he]; rfl
  have hcl : (Model.Shake.cshake b).pr.clear = Model.Shake.clear := rfl
  rw [← hr]
  constructor
  · intro θ msg n s h
    rw [hi]
    exact rel_init r h8 hr0 h168 θ s h.fields.1 h.fields.2.1 h.fields.2.2 h.1 h.2.1
  · intro θ msg s data h hd
    rw [hu]
    exact rel_update r h8 hr0 h168 θ msg s data h hd
  · intro θ msg n s k h _ hk _ _
    show ∃ s', _ = Except.ok (slice (Spec.Keccak.cshakeFullStream (200 - 2 * b / 8) θ msg) n k, s') ∧ _
    rw [← hr, hsq]
    exact rel_squeeze r h8 hr0 h168 θ msg n s k h hk
  · intro _ θ msg n s h
    rw [hi, hcl]
    exact rel_clear r h8 hr0 h168 θ msg n s h
  · intro θ msg n s p h hpp
    obtain ⟨hm, hN, hS⟩ := h.fields
    cases p with
    | functionName v =>
      obtain ⟨s', e, h2⟩ := rel_init r h8 hr0 h168 ⟨v, θ.S⟩ (Model.Shake.setFunctionName v s) hm rfl hS hpp h.2.1
      exact ⟨_, s', rfl, by rw [hi]; exact e, h2⟩
    | customization v =>
      obtain ⟨s', e, h2⟩ := rel_init r h8 hr0 h168 ⟨θ.N, v⟩ (Model.Shake.setCustomization v s) hm hN rfl h.1 hpp
      exact ⟨_, s', rfl, by rw [hi]; exact e, h2⟩

theorem stream_regular (r : Nat) (hr0 : 0 < r) (θ : CShakeParams) (h : Spec.Keccak.cshakeRegular r θ) (msg : Bytes) :
    Spec.Keccak.cshakeStream r θ msg = Spec.Keccak.cshakeFullStream r θ msg := by
  unfold Spec.Keccak.cshakeStream Spec.Keccak.cshakeFullStream
  by_cases hc : θ.N = [] ∧ θ.S = []
  · rw [if_pos hc, if_pos hc]
  · rw [if_neg hc, if_neg hc]
    have h' := h.resolve_left hc
    unfold Spec.Keccak.bytepad Spec.Keccak.bytepadFull
    dsimp only
    rw [Nat.mod_eq_of_lt (by omega)]

theorem refinesShake (b : Nat) (hb : b = 128 ∨ b = 256) :
    XofRefines (Model.Shake.shake b).pr (Spec.shake b) (Cover.all Empty) (fun _ => Rel (200 - 2 * b / 8) ⟨[], []⟩) := by
  obtain ⟨r, hr, he, h8, hr0, h168⟩ := rateOf_eq b hb
  have hi : (Model.Shake.shake b).pr.init = Model.Shake.init 24 (8 * r) := by rw [← he]; rfl
  have hu : (Model.Shake.shake b).pr.update = Model.Shake.update 24 (8 * r) := by rw [← he]; rfl
  have hsq : (Model.Shake.shake b).pr.squeeze = Model.Shake.squeeze 24 (8 * r) := by rw [← he]; rfl
  have hcl : (Model.Shake.shake b).pr.clear = Model.Shake.clear := rfl
  rw [← hr]
  constructor
  · intro _ msg n s h
    rw [hi]
    exact rel_init r h8 hr0 h168 _ s h.fields.1 h.fields.2.1 h.fields.2.2 h.1 h.2.1
  · intro _ msg s data h hd
    rw [hu]
    exact rel_update r h8 hr0 h168 _ msg s data h hd
  · intro _ msg n s k h _ hk _ _
    show ∃ s', _ = Except.ok (slice (Spec.Keccak.keccak (200 - 2 * b / 8) [true, true, true, true] msg) n k, s') ∧ _
    rw [← hr, hsq]
    exact rel_squeeze r h8 hr0 h168 _ msg n s k h hk
  · intro _ _ msg n s h
    rw [hi, hcl]
    exact rel_clear r h8 hr0 h168 _ msg n s h
  · nofun

end Shake
end Digestpp.Proofs
