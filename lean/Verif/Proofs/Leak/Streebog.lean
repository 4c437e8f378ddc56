import Verif.Proofs.Leak.Basic
import Verif.Model.Leak.Streebog

/-! Traces of the functions of `Model/Leak/Streebog`: without the trace they are those of `Model/Locals`; the length of the trace is the same for all data. -/

namespace Digestpp.Proofs.Leak.Streebog
open Model
open Model.Streebog
open Locals.Streebog (Stack)
theorem look_erase (ch : Bytes) (j : Nat) (i : Nat) : L.erase (Model.Leak.Streebog.look ch j i) = Model.Locals.Streebog.look ch j i := by
  unfold Model.Leak.Streebog.look Model.Locals.Streebog.look
  erase_simp []

theorem look_len (ch ch' : Bytes) (j : Nat) (i : Nat) : Len (Model.Leak.Streebog.look ch j i) (Model.Leak.Streebog.look ch' j i) := by
  unfold Model.Leak.Streebog.look
  len []

theorem lps_erase (I : Nat) (ch : Bytes) : L.erase (Model.Leak.Streebog.lps I ch) = Model.Locals.Streebog.lps I ch := by
  unfold Model.Leak.Streebog.lps Model.Locals.Streebog.lps
  erase_simp [Streebog.look_erase]

theorem lps_len (I : Nat) (ch ch' : Bytes) : Len (Model.Leak.Streebog.lps I ch) (Model.Leak.Streebog.lps I ch') := by
  unfold Model.Leak.Streebog.lps
  len [(Streebog.look_len _ _ _ _)]

theorem lpsBlock_erase (ch : Bytes) (block : List (BitVec 64)) : L.erase (Model.Leak.Streebog.lpsBlock ch block) = Model.Locals.Streebog.lpsBlock ch block := by
  unfold Model.Leak.Streebog.lpsBlock Model.Locals.Streebog.lpsBlock
  erase_simp [Streebog.lps_erase]

theorem lpsBlock_len (ch ch' : Bytes) (block block' : List (BitVec 64)) : Len (Model.Leak.Streebog.lpsBlock ch block) (Model.Leak.Streebog.lpsBlock ch' block') := by
  unfold Model.Leak.Streebog.lpsBlock
  len [(Streebog.lps_len _ _ _)]

theorem xorBlocks_erase (toxor : Nat → L (BitVec 64)) (toxorM : Nat → M (BitVec 64)) (block : List (BitVec 64)) (htoxor : ∀ x0, L.erase (toxor x0) = toxorM x0) : L.erase (Model.Leak.Streebog.xorBlocks toxor block) = Model.Locals.Streebog.xorBlocks toxorM block := by
  unfold Model.Leak.Streebog.xorBlocks Model.Locals.Streebog.xorBlocks
  erase_simp [htoxor]

theorem xorBlocks_len {toxor toxor' : Nat → L (BitVec 64)} (ht : ∀ i, Len (toxor i) (toxor' i)) (block block' : List (BitVec 64)) :
    Len (Model.Leak.Streebog.xorBlocks toxor block) (Model.Leak.Streebog.xorBlocks toxor' block') := by
  unfold Model.Leak.Streebog.xorBlocks
  len [(ht _)]

theorem round_erase (ch : Nat → Bytes) (i : Nat) (kt : List (BitVec 64) × List (BitVec 64)) : L.erase (Model.Leak.Streebog.round ch i kt) = Model.Locals.Streebog.round ch i kt := by
  unfold Model.Leak.Streebog.round Model.Locals.Streebog.round
  erase_simp [Streebog.lpsBlock_erase, xorBlocks_erase _ (rd _) _ (erase_rd _), xorBlocks_erase _ (rd64 _) _ (erase_rd64 _)]

theorem round_len (ch ch' : Nat → Bytes) (i : Nat) (kt kt' : List (BitVec 64) × List (BitVec 64)) : Len (Model.Leak.Streebog.round ch i kt) (Model.Leak.Streebog.round ch' i kt') := by
  unfold Model.Leak.Streebog.round
  len [(Streebog.lpsBlock_len _ _ _ _), (xorBlocks_len (fun _ => Len.rd) _ _), (xorBlocks_len (fun _ => Len.rd64) _ _)]

theorem e_erase (ch : Nat → Bytes) (tmp : List (BitVec 64)) (K : List (BitVec 64)) (m : Bytes) : L.erase (Model.Leak.Streebog.e ch tmp K m) = Model.Locals.Streebog.e ch tmp K m := by
  unfold Model.Leak.Streebog.e Model.Locals.Streebog.e
  erase_simp [xorBlocks_erase _ (rd _) _ (erase_rd _), xorBlocks_erase _ (rd64 _) _ (erase_rd64 _), Streebog.round_erase]

theorem e_len (ch ch' : Nat → Bytes) (tmp tmp' : List (BitVec 64)) (K K' : List (BitVec 64)) (m m' : Bytes) : Len (Model.Leak.Streebog.e ch tmp K m) (Model.Leak.Streebog.e ch' tmp' K' m') := by
  unfold Model.Leak.Streebog.e
  len [(xorBlocks_len (fun _ => Len.rd) _ _), (xorBlocks_len (fun _ => Len.rd64) _ _), (Streebog.round_len _ _ _ _ _)]

theorem gN_erase (k : Stack) (h : List (BitVec 64)) (m : Bytes) (N : BitVec 64) : L.erase (Model.Leak.Streebog.gN k h m N) = Model.Locals.Streebog.gN k h m N := by
  unfold Model.Leak.Streebog.gN Model.Locals.Streebog.gN
  erase_simp [Streebog.lpsBlock_erase, xorBlocks_erase _ (rd _) _ (erase_rd _), xorBlocks_erase _ (rd64 _) _ (erase_rd64 _), Streebog.e_erase]

theorem gN_len (k k' : Stack) (h h' : List (BitVec 64)) (m m' : Bytes) (N N' : BitVec 64) : Len (Model.Leak.Streebog.gN k h m N) (Model.Leak.Streebog.gN k' h' m' N') := by
  unfold Model.Leak.Streebog.gN
  len [(Streebog.lpsBlock_len _ _ _ _), (xorBlocks_len (fun _ => Len.rd) _ _), (xorBlocks_len (fun _ => Len.rd64) _ _), (Streebog.e_len _ _ _ _ _ _ _ _)]

theorem overflow_erase (t x y : BitVec 64) : L.erase (Model.Leak.Streebog.overflow t x y) = pure (decide (t < x) || decide (t < y)) := by
  unfold Model.Leak.Streebog.overflow
  erase_simp []
  by_cases h : t < x
  · rw [if_pos h, decide_eq_true h, Bool.true_or]
  · rw [if_neg h, decide_eq_false h, Bool.false_or]

theorem overflow_len (t x y t' x' y' : BitVec 64) : Len (Model.Leak.Streebog.overflow t x y) (Model.Leak.Streebog.overflow t' x' y') := by
  unfold Model.Leak.Streebog.overflow
  len []

theorem addm_erase (m : Bytes) (h : List (BitVec 64)) : L.erase (Model.Leak.Streebog.addm m h) = Model.Locals.Streebog.addm m h := by
  unfold Model.Leak.Streebog.addm Model.Locals.Streebog.addm
  erase_simp [overflow_erase, pure_bind]

theorem addm_len (m m' : Bytes) (h h' : List (BitVec 64)) : Len (Model.Leak.Streebog.addm m h) (Model.Leak.Streebog.addm m' h') := by
  unfold Model.Leak.Streebog.addm
  len [(overflow_len _ _ _ _ _ _)]

theorem transform_erase (k : Nat → Stack) (final : Bool) (data : Bytes) (n : Nat) (s : Blk St) : L.erase (Model.Leak.Streebog.transform k final data n s) = Model.Locals.Streebog.transform k final data n s := by
  unfold Model.Leak.Streebog.transform Model.Locals.Streebog.transform
  erase_simp [Streebog.gN_erase, Streebog.addm_erase]

theorem transform_len (k k' : Nat → Stack) (final : Bool) (data data' : Bytes) (n : Nat) (s s' : Blk St) : Len (Model.Leak.Streebog.transform k final data n s) (Model.Leak.Streebog.transform k' final data' n s') := by
  unfold Model.Leak.Streebog.transform
  len [(Streebog.gN_len _ _ _ _ _ _ _ _), (Streebog.addm_len _ _ _ _)]

end Digestpp.Proofs.Leak.Streebog
