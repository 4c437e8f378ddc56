import Verif.Proofs.Pointers
import Verif.Proofs.Locals.Total
import Verif.Proofs.SafetyShake
import Verif.Proofs.SafetyBlake2
import Verif.Proofs.SafetySkein
import Verif.Proofs.SafetyAscon
import Verif.Proofs.Echo

/-! The transformation functions change neither the position nor the size of the buffer. -/

namespace Digestpp.Proofs.Pointers
open Model Proofs.Locals
variable {σ : Type}

/-- A `transform` that is a loop over the blocks on the state only. -/
theorem safe_blocks {bs msize : Nat} {inv : σ → Prop} {tr : Bytes → Nat → Blk σ → M (Blk σ)} (step : BitVec 64 → Nat → Bytes → σ → M σ)
    (hs : ∀ t i b h, inv h → ∃ h', step t i b h = .ok h' ∧ inv h')
    (ht : ∀ data n s, inv s.h → tr data n s = (forBlocks bs data n (step s.total) s.h >>= fun h => pure { s with h := h })) : SafeTransform bs msize inv tr := by
  intro s data n hn hm hi
  obtain ⟨h', e, i⟩ := forBlocks_safe (step := step s.total) (inv := inv) (fun i b h _ hi => hs s.total i b h hi) data n s.h hn hi
  exact ⟨h', s.m, hm, i, by rw [ht data n s hi, e]; rfl⟩

/-- Nothing need be known of the state. -/
def anySt (_ : σ) : Prop := True

theorem total_any {x : M σ} (h : Total x) : ∃ h', x = .ok h' ∧ anySt h' := h.imp fun _ e => ⟨e, trivial⟩

theorem md5_safe : SafeTransform 64 64 anySt Md5.transform :=
  safe_blocks (fun _ _ b h => Md5.compress b h) (fun _ _ b h _ => total_any (Md5.compress_total b h)) fun _ _ _ _ => rfl

theorem sha1_safe : SafeTransform 64 64 anySt Sha1.transform :=
  safe_blocks (fun _ _ b h => Sha1.compress b h) (fun _ _ _ _ _ => ⟨_, rfl, trivial⟩) fun _ _ _ _ => rfl

theorem sm3_safe : SafeTransform 64 64 anySt (Sm3.transform rotlMasked) := by
  have r : ∀ k ff gg W W2 v t, Total (Sm3.round rotlMasked k ff gg W W2 v t) := fun _ _ _ _ _ _ _ => Total.bind ⟨_, rfl⟩ fun _ => .pure _
  refine safe_blocks (fun _ _ b h => Sm3.compress rotlMasked b h) (fun _ _ b h _ => total_any ?_) fun _ _ _ _ => rfl
  exact (Total.foldlM _ (fun _ _ _ => r _ _ _ _ _ _ _) _).bind fun _ => (Total.foldlM _ (fun _ _ _ => r _ _ _ _ _ _ _) _).bind fun _ => .pure _

theorem sha2_safe {w : Nat} (T : Sha2.Word w) (msize : Nat) : SafeTransform (T.N / 4) msize anySt (Sha2.transform T) :=
  safe_blocks (fun _ _ b h => pure { h with H := Sha2.compress T b h.H }) (fun _ _ _ _ _ => ⟨_, rfl, trivial⟩) fun _ _ _ _ => rfl

theorem sha3_safe (rate : Nat) (hr : rate ≤ 1600) : SafeTransform (rate / 8) 144 (fun h : Sha3.St => h.rate = rate) Sha3.onBlocks := by
  intro s data n hn hm hi
  obtain ⟨A, e⟩ := Sha3.transform_total 24 rate hr data n hn s.h.A
  exact ⟨{ s.h with A := A }, s.m, hm, hi, by unfold Sha3.onBlocks; rw [hi, e]; rfl⟩

theorem shake_safe (R rate : Nat) (hr : rate ≤ 1600) : SafeTransform (rate / 8) 168 anySt (Shake.onBlocks R rate) := by
  intro s data n hn hm hi
  obtain ⟨A, e⟩ := Sha3.transform_total R rate hr data n hn s.h.A
  exact ⟨{ s.h with A := A }, s.m, hm, hi, by unfold Shake.onBlocks; rw [e]; rfl⟩

theorem blake_block_hs (p f : Bool) (t : BitVec 64) (i : Nat) (b : Bytes) (h : Blake.St) : (Blake.block p f t i b h).hs = h.hs := by
  unfold Blake.block
  split <;> rfl

theorem blake_safe (hs : Nat) : SafeTransform (Blake.blockBytes hs) 128 (fun h : Blake.St => h.hs = hs) (Blake.transform false false) :=
  safe_blocks (fun t i b h => pure (Blake.block false false t i b h)) (fun _ _ _ _ hi => ⟨_, rfl, (blake_block_hs ..).trans hi⟩) fun _ _ s hi => by
    unfold Blake.transform; rw [hi]

theorem blake2_safe {w : Nat} (T : Blake2.Word w) : SafeTransform (2 * w) (2 * w) anySt (Blake2.transform T false) :=
  safe_blocks (fun t i b h => pure (Blake2.block T false t i b h)) (fun _ _ _ _ _ => ⟨_, rfl, trivial⟩) fun _ _ _ _ => rfl

theorem skein_safe (F : Skein.Fns) (hF : ∀ r, r < 8 → ∀ j, j < F.nw / 2 → 0 < (F.C.getD r []).getD j 0 ∧ (F.C.getD r []).getD j 0 < 64) (reallen msize : Nat) :
    SafeTransform (8 * F.nw) msize anySt (Skein.transform F reallen) := by
  have g : ∀ r, r < 8 → ∀ G, Total (Skein.GTv4 F r G) := fun r hr G =>
    Total.foldlM _ (fun j hj G => (rotl_total _ _ (hF r hr j (List.mem_range.1 hj))).bind fun _ => .pure _) _
  have g8 : ∀ r keys tweaks G, Total (Skein.G8 F r keys tweaks G) := fun r keys tweaks G =>
    (g 0 (by omega) _).bind fun _ => (g 1 (by omega) _).bind fun _ => (g 2 (by omega) _).bind fun _ => (g 3 (by omega) _).bind fun _ =>
    (g 4 (by omega) _).bind fun _ => (g 5 (by omega) _).bind fun _ => (g 6 (by omega) _).bind fun _ => (g 7 (by omega) _).bind fun _ => .pure _
  refine safe_blocks (fun _ _ b h => Skein.block F reallen b h) (fun _ _ b h _ => total_any ?_) fun _ _ _ _ => rfl
  exact (Total.foldlM _ (fun _ _ _ => g8 _ _ _ _) _).bind fun _ => .pure _

theorem groestl_safe (hs msize : Nat) : SafeTransform (Groestl.blockBytes hs) msize (fun h : Groestl.St => h.hs = hs) Groestl.transform :=
  safe_blocks (fun _ _ b h => pure { h with h := Groestl.compress (Groestl.cols h.hs) h.h (loads64 (Groestl.cols h.hs) b) }) (fun _ _ _ _ hi => ⟨_, rfl, hi⟩) fun _ _ s hi => by
    unfold Groestl.transform; rw [hi]

theorem kupyna_safe (hs msize : Nat) : SafeTransform (Kupyna.blockBytes hs) msize (fun h : Kupyna.St => h.hs = hs) Kupyna.transform :=
  safe_blocks (fun _ _ b h => pure { h with h := Kupyna.compress (Kupyna.cols h.hs) h.h (loads64 (Kupyna.cols h.hs) b) }) (fun _ _ _ _ hi => ⟨_, rfl, hi⟩) fun _ _ s hi => by
    unfold Kupyna.transform; rw [hi]

theorem whirlpool_safe : SafeTransform 64 64 anySt Whirlpool.transform :=
  safe_blocks (fun _ _ b h => pure (Whirlpool.compress b h)) (fun _ _ _ _ _ => ⟨_, rfl, trivial⟩) fun _ _ _ _ => rfl

theorem streebog_safe : SafeTransform 64 64 anySt (Streebog.transform Streebog.addm false) :=
  safe_blocks (fun t blk b h => pure { h with h := Streebog.gN h.h b (t + BitVec.ofNat 64 (blk * 512)), S := Streebog.addm b h.S })
    (fun _ _ _ _ _ => ⟨_, rfl, trivial⟩) fun _ _ _ _ => rfl

theorem jh_safe : SafeTransform 64 64 anySt Jh.transform :=
  safe_blocks (fun _ _ b h => pure { h with H := Jh.compress h.H (loads64 8 b) }) (fun _ _ _ _ _ => ⟨_, rfl, trivial⟩) fun _ _ _ _ => rfl

theorem esch_safe : SafeTransform 16 128 anySt (Esch.transform false) :=
  safe_blocks (fun _ _ b h => pure (Esch.absorbBlock false b h)) (fun _ _ _ _ _ => ⟨_, rfl, trivial⟩) fun _ _ _ _ => rfl

theorem ascon_safe : SafeTransform 8 64 anySt Ascon.transform := by
  intro s data n hn hm hi
  obtain ⟨H, e⟩ := Total.blocks (bs := 8) (step := fun _ b H => pure (Ascon.absorbBlock b H)) (fun _ _ _ => .pure _) data n hn s.h.H
  exact ⟨{ s.h with H := H }, s.m, hm, hi, by unfold Ascon.transform; rw [e]; rfl⟩

theorem lsh_safe {w : Nat} (T : Lsh.Word w) (msize : Nat) : SafeTransform (Lsh.blockBytes w) msize anySt (Lsh.transform rotlMasked T) := by
  have st : ∀ i ra rb h, Total (Lsh.step rotlMasked T i ra rb h) := fun i ra rb h =>
    (Total.mapM (fun l => Total.bind ⟨_, rfl⟩ fun _ => .pure _) _).bind fun _ => .pure _
  refine safe_blocks (fun _ _ b h => Lsh.compress rotlMasked T b h) (fun _ _ b h _ => total_any ?_) fun _ _ _ _ => rfl
  exact (Total.foldlM _ (fun _ _ _ => (st _ _ _ _).bind fun _ => st _ _ _ _) _).bind fun _ => .pure _

theorem echo_safe (hs : Nat) : SafeTransform (Echo.blockBytes hs) (Echo.blockBytes hs) (fun h : Echo.St => h.hs = hs) Echo.transform := by
  intro s data n hn hm hi
  obtain ⟨s', e, a, b, c, d⟩ := forBlocks_safe (bs := Echo.blockBytes hs)
    (inv := fun x : Blk Echo.St => x.m.length = Echo.blockBytes hs ∧ x.h.hs = hs ∧ x.pos = s.pos ∧ x.total = s.total)
    (step := fun blk b x => do
      let counter := s.total + BitVec.ofNat 64 ((blk * Echo.blockBytes hs + Echo.blockBytes hs) * 8)
      let m ← memcpyTo x.m 0 b
      pure { x with m := m, h := Echo.compress counter m x.h }) (fun i b x hb hx => by
        obtain ⟨m, em, lm⟩ := memcpyTo_safe x.m 0 b (by omega)
        rw [em]
        exact ⟨_, rfl, lm.trans hx.1, hx.2.1, hx.2.2⟩) data n s hn ⟨hm, hi, rfl, rfl⟩
  refine ⟨s'.h, s'.m, a, b, ?_⟩
  unfold Echo.transform
  rw [hi]
  refine e.trans ?_
  obtain ⟨h, m, pos, total⟩ := s'
  dsimp only at c d
  rw [c, d]

end Digestpp.Proofs.Pointers
