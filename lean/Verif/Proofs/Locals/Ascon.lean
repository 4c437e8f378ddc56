import Verif.Model.Locals.Ascon
import Verif.Proofs.Locals.Sha1

/-! C58, Ascon. -/

namespace Digestpp.Proofs.Locals.Ascon
open Model
open Model.Ascon

theorem RC_length : ascon_RC.length = 12 := by decide

theorem round_ok (i : Nat) (hi : i < 12) (H : List (BitVec 64)) (hH : H.length = 5) :
    Locals.Ascon.round i H = .ok (round H i) ∧ (round H i).length = 5 := by
  have e : rd ascon_RC i = .ok (ascon_RC.getD i 0) := rd_ok 0 (by rw [RC_length]; exact hi)
  unfold Locals.Ascon.round round
  rw [e, ok_then]
  generalize ascon_RC.getD i 0 = c
  match H, hH with
  | [a, b, d, f, g], _ => exact ⟨rfl, rfl⟩

theorem block_ok (data b : Bytes) (blk : Nat) (hr : readBytes data (blk * 8) 8 = .ok b) (H : List (BitVec 64)) (hH : H.length = 5) :
    Locals.Ascon.block data blk H = .ok (absorbBlock b H) ∧ (absorbBlock b H).length = 5 := by
  have e : rd64 data blk = .ok (at64 (loads64 1 b) 0) := by
    have := rd64_block (n := 1) (i := 0) hr (by omega)
    rwa [Nat.mul_one, Nat.add_zero] at this
  unfold Locals.Ascon.block absorbBlock
  rw [e, ok_then, upd_ok _ 0 (by omega), ok_then]
  have := loop_eq round (fun _ H => H.length = 5) 0 12 (by omega) Locals.Ascon.round (H.set 0 (H.getD 0 0 ^^^ at64 (loads64 1 b) 0)) (by rw [List.length_set, hH])
    (fun t H _ ht hl => round_ok t ht H hl)
  rw [Nat.sub_zero, ← List.range_eq_range'] at this
  exact this

theorem transform_eq (data : Bytes) (n : Nat) (hd : n * 8 ≤ data.length) (s : Blk St) (hs : s.h.H.length = 5) :
    Locals.Ascon.transform data n s = Ascon.transform data n s := by
  unfold Locals.Ascon.transform Ascon.transform
  have R := blocks_rel 8 data n hd (fun (x y : List (BitVec 64)) => x.length = 5 ∧ y = x)
    (Locals.Ascon.block data) (fun _ b H => pure (absorbBlock b H)) (by
      rintro blk b x y hblk hr hb ⟨hx, rfl⟩
      obtain ⟨e, l⟩ := block_ok data b blk hr y hx
      rw [e]
      exact ⟨l, rfl⟩) s.h.H s.h.H ⟨hs, rfl⟩
  revert R
  generalize forBlocks _ _ _ _ _ = u
  generalize loop _ _ _ _ = v
  intro R
  cases u with
  | error e1 =>
    cases v with
    | error e2 => cases R; rfl
    | ok y => exact R.elim
  | ok u =>
    cases v with
    | error e2 => exact R.elim
    | ok v =>
      obtain ⟨-, e⟩ := R
      rw [ok_then, ok_then, e]

end Digestpp.Proofs.Locals.Ascon
