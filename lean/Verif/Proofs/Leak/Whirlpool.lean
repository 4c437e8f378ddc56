import Verif.Proofs.Leak.Groestl
import Verif.Model.Leak.Whirlpool

/-! Traces of the functions of `Model/Leak/Whirlpool`: without the trace they are those of `Model/Locals`; the length of the trace is the same for all data. -/

namespace Digestpp.Proofs.Leak.Whirlpool
open Model
open Model.Whirlpool
open Locals.Whirlpool (Stack)
theorem G_erase (a : Nat) (ll : List (BitVec 64)) : L.erase (Model.Leak.Whirlpool.G a ll) = Model.Locals.Whirlpool.G a ll := by
  exact cell_erase ..

theorem G_len (a : Nat) (ll ll' : List (BitVec 64)) : Len (Model.Leak.Whirlpool.G a ll) (Model.Leak.Whirlpool.G a ll') := by
  exact cell_len _ _ _ _ _ _ _ _ _ _ _ _

theorem key_erase (r : Nat) (K l : List (BitVec 64)) : L.erase (Model.Leak.Whirlpool.key r K l) = Model.Locals.Whirlpool.key r K l := by
  unfold Model.Leak.Whirlpool.key Model.Locals.Whirlpool.key
  erase_simp [G_erase]

theorem key_len (r : Nat) (K l K' l' : List (BitVec 64)) : Len (Model.Leak.Whirlpool.key r K l) (Model.Leak.Whirlpool.key r K' l') := by
  unfold Model.Leak.Whirlpool.key
  len [(G_len _ _ _)]

theorem add_erase (state l : List (BitVec 64)) : L.erase (Model.Leak.Whirlpool.add state l) = Model.Locals.Whirlpool.add state l := by
  unfold Model.Leak.Whirlpool.add Model.Locals.Whirlpool.add
  erase_simp [G_erase]

theorem add_len (state l state' l' : List (BitVec 64)) : Len (Model.Leak.Whirlpool.add state l) (Model.Leak.Whirlpool.add state' l') := by
  unfold Model.Leak.Whirlpool.add
  len [(G_len _ _ _)]

theorem round_erase (l : Nat → List (BitVec 64)) (r : Nat) (ks : List (BitVec 64) × List (BitVec 64)) : L.erase (Model.Leak.Whirlpool.round l r ks) = Model.Locals.Whirlpool.round l r ks := by
  unfold Model.Leak.Whirlpool.round Model.Locals.Whirlpool.round
  erase_simp [key_erase, add_erase]

theorem round_len (l l' : Nat → List (BitVec 64)) (r : Nat) (ks ks' : List (BitVec 64) × List (BitVec 64)) : Len (Model.Leak.Whirlpool.round l r ks) (Model.Leak.Whirlpool.round l' r ks') := by
  unfold Model.Leak.Whirlpool.round
  len [(key_len _ _ _ _ _), (add_len _ _ _ _)]

theorem block_erase (k : Stack) (mp : Bytes) (h : List (BitVec 64)) : L.erase (Model.Leak.Whirlpool.block k mp h) = Model.Locals.Whirlpool.block k mp h := by
  unfold Model.Leak.Whirlpool.block Model.Locals.Whirlpool.block
  erase_simp [round_erase]

theorem block_len (k k' : Stack) (mp mp' : Bytes) (h h' : List (BitVec 64)) : Len (Model.Leak.Whirlpool.block k mp h) (Model.Leak.Whirlpool.block k' mp' h') := by
  unfold Model.Leak.Whirlpool.block
  len [(round_len _ _ _ _ _)]

theorem transform_erase (k : Nat → Stack) (data : Bytes) (n : Nat) (s : Blk (List (BitVec 64))) : L.erase (Model.Leak.Whirlpool.transform k data n s) = Model.Locals.Whirlpool.transform k data n s := by
  unfold Model.Leak.Whirlpool.transform Model.Locals.Whirlpool.transform
  erase_simp [block_erase]

theorem transform_len (k k' : Nat → Stack) (data data' : Bytes) (n : Nat) (s s' : Blk (List (BitVec 64))) : Len (Model.Leak.Whirlpool.transform k data n s) (Model.Leak.Whirlpool.transform k' data' n s') := by
  unfold Model.Leak.Whirlpool.transform
  len [(block_len _ _ _ _ _ _)]

end Digestpp.Proofs.Leak.Whirlpool
