import Verif.Proofs.Leak.Basic
import Verif.Model.Leak.Echo

/-! Traces of the functions of `Model/Leak/Echo`: without the trace they are those of `Model/Locals`; the length of the trace is the same for all data. -/

namespace Digestpp.Proofs.Leak.Echo
open Model
open Model.Echo
theorem swap_erase (i : Nat) (j : Nat) (w : List (BitVec 64)) : L.erase (Model.Leak.Echo.swap i j w) = Model.Locals.Echo.swap i j w := by
  unfold Model.Leak.Echo.swap Model.Locals.Echo.swap
  erase_simp []

theorem swap_len (i : Nat) (j : Nat) (w w' : List (BitVec 64)) : Len (Model.Leak.Echo.swap i j w) (Model.Leak.Echo.swap i j w') := by
  unfold Model.Leak.Echo.swap
  len []

theorem shiftRows_erase (w : List (BitVec 64)) : L.erase (Model.Leak.Echo.shiftRows w) = Model.Locals.Echo.shiftRows w := by
  unfold Model.Leak.Echo.shiftRows Model.Locals.Echo.shiftRows
  erase_simp [Echo.swap_erase]

theorem shiftRows_len (w w' : List (BitVec 64)) : Len (Model.Leak.Echo.shiftRows w) (Model.Leak.Echo.shiftRows w') := by
  unfold Model.Leak.Echo.shiftRows
  len [(Echo.swap_len _ _ _ _)]

theorem mixStep_erase (idx : Nat) (w : List (BitVec 64)) : L.erase (Model.Leak.Echo.mixStep idx w) = Model.Locals.Echo.mixStep idx w := by
  unfold Model.Leak.Echo.mixStep Model.Locals.Echo.mixStep
  erase_simp []

theorem mixStep_len (idx : Nat) (w w' : List (BitVec 64)) : Len (Model.Leak.Echo.mixStep idx w) (Model.Leak.Echo.mixStep idx w') := by
  unfold Model.Leak.Echo.mixStep
  len []

theorem mixColumns_erase (w : List (BitVec 64)) : L.erase (Model.Leak.Echo.mixColumns w) = Model.Locals.Echo.mixColumns w := by
  unfold Model.Leak.Echo.mixColumns Model.Locals.Echo.mixColumns
  erase_simp [Echo.mixStep_erase]

theorem mixColumns_len (w w' : List (BitVec 64)) : Len (Model.Leak.Echo.mixColumns w) (Model.Leak.Echo.mixColumns w') := by
  unfold Model.Leak.Echo.mixColumns
  len [(Echo.mixStep_len _ _ _)]

theorem look_erase {v : Nat} (i : Nat) (x : BitVec v) (n : Nat) : L.erase (Model.Leak.Echo.look i x n) = Model.Locals.Echo.look i x n := by
  unfold Model.Leak.Echo.look Model.Locals.Echo.look
  erase_simp []

theorem look_len {v : Nat} (i : Nat) (x x' : BitVec v) (n : Nat) : Len (Model.Leak.Echo.look i x n) (Model.Leak.Echo.look i x' n) := by
  unfold Model.Leak.Echo.look
  len []

theorem four_erase {v : Nat} (x0 : BitVec v) (n0 : Nat) (x1 : BitVec v) (n1 : Nat) (x2 : BitVec v) (n2 : Nat) (x3 : BitVec v) (n3 : Nat) :
    L.erase (Model.Leak.Echo.four x0 n0 x1 n1 x2 n2 x3 n3) = Model.Locals.Echo.four x0 n0 x1 n1 x2 n2 x3 n3 := by
  unfold Model.Leak.Echo.four Model.Locals.Echo.four
  erase_simp [look_erase]

theorem four_len {v : Nat} (x0 x0' : BitVec v) (n0 : Nat) (x1 x1' : BitVec v) (n1 : Nat) (x2 x2' : BitVec v) (n2 : Nat) (x3 x3' : BitVec v) (n3 : Nat) :
    Len (Model.Leak.Echo.four x0 n0 x1 n1 x2 n2 x3 n3) (Model.Leak.Echo.four x0' n0 x1' n1 x2' n2 x3' n3) := by
  unfold Model.Leak.Echo.four
  len [(look_len _ _ _ _)]

theorem first_erase (x0 : BitVec 64) (x1 : BitVec 64) (counter : BitVec 64) : L.erase (Model.Leak.Echo.first x0 x1 counter) = Model.Locals.Echo.first x0 x1 counter := by
  unfold Model.Leak.Echo.first Model.Locals.Echo.first
  erase_simp [four_erase]

theorem first_len (x0 x0' : BitVec 64) (x1 x1' : BitVec 64) (counter counter' : BitVec 64) : Len (Model.Leak.Echo.first x0 x1 counter) (Model.Leak.Echo.first x0' x1' counter') := by
  unfold Model.Leak.Echo.first
  len [(four_len _ _ _ _ _ _ _ _ _ _ _ _)]

theorem second_erase (salt : List (BitVec 64)) (s : Nat) (a : BitVec 32) (b : BitVec 32) (c : BitVec 32) (d : BitVec 32) : L.erase (Model.Leak.Echo.second salt s a b c d) = Model.Locals.Echo.second salt s a b c d := by
  unfold Model.Leak.Echo.second Model.Locals.Echo.second
  erase_simp [four_erase]

theorem second_len (salt salt' : List (BitVec 64)) (s : Nat) (a a' : BitVec 32) (b b' : BitVec 32) (c c' : BitVec 32) (d d' : BitVec 32) : Len (Model.Leak.Echo.second salt s a b c d) (Model.Leak.Echo.second salt' s a' b' c' d') := by
  unfold Model.Leak.Echo.second
  len [(four_len _ _ _ _ _ _ _ _ _ _ _ _)]

theorem subWord_erase (salt : List (BitVec 64)) (r : Nat) (s : List (BitVec 64) × BitVec 64) : L.erase (Model.Leak.Echo.subWord salt r s) = Model.Locals.Echo.subWord salt r s := by
  unfold Model.Leak.Echo.subWord Model.Locals.Echo.subWord
  erase_simp [Echo.first_erase, Echo.second_erase]

theorem subWord_len (salt salt' : List (BitVec 64)) (r : Nat) (s s' : List (BitVec 64) × BitVec 64) : Len (Model.Leak.Echo.subWord salt r s) (Model.Leak.Echo.subWord salt' r s') := by
  unfold Model.Leak.Echo.subWord
  len [(Echo.first_len _ _ _ _ _ _), (Echo.second_len _ _ _ _ _ _ _ _ _ _ _)]

theorem subWords_erase (salt : List (BitVec 64)) (s : List (BitVec 64) × BitVec 64) : L.erase (Model.Leak.Echo.subWords salt s) = Model.Locals.Echo.subWords salt s := by
  unfold Model.Leak.Echo.subWords Model.Locals.Echo.subWords
  erase_simp [Echo.subWord_erase]

theorem subWords_len (salt salt' : List (BitVec 64)) (s s' : List (BitVec 64) × BitVec 64) : Len (Model.Leak.Echo.subWords salt s) (Model.Leak.Echo.subWords salt' s') := by
  unfold Model.Leak.Echo.subWords
  len [(Echo.subWord_len _ _ _ _ _)]

theorem rounds_erase (n : Nat) (salt : List (BitVec 64)) (s : List (BitVec 64) × BitVec 64) : L.erase (Model.Leak.Echo.rounds n salt s) = Model.Locals.Echo.rounds n salt s := by
  unfold Model.Leak.Echo.rounds Model.Locals.Echo.rounds
  erase_simp [Echo.shiftRows_erase, Echo.mixColumns_erase, Echo.subWords_erase]

theorem rounds_len (n : Nat) (salt salt' : List (BitVec 64)) (s s' : List (BitVec 64) × BitVec 64) : Len (Model.Leak.Echo.rounds n salt s) (Model.Leak.Echo.rounds n salt' s') := by
  unfold Model.Leak.Echo.rounds
  len [(Echo.shiftRows_len _ _), (Echo.mixColumns_len _ _), (Echo.subWords_len _ _ _ _)]

theorem final256_erase (w : List (BitVec 64)) (h : List (BitVec 64)) : L.erase (Model.Leak.Echo.final256 w h) = Model.Locals.Echo.final256 w h := by
  unfold Model.Leak.Echo.final256 Model.Locals.Echo.final256
  erase_simp []

theorem final256_len (w w' : List (BitVec 64)) (h h' : List (BitVec 64)) : Len (Model.Leak.Echo.final256 w h) (Model.Leak.Echo.final256 w' h') := by
  unfold Model.Leak.Echo.final256
  len []

theorem final512_erase (w : List (BitVec 64)) (h : List (BitVec 64)) : L.erase (Model.Leak.Echo.final512 w h) = Model.Locals.Echo.final512 w h := by
  unfold Model.Leak.Echo.final512 Model.Locals.Echo.final512
  erase_simp []

theorem final512_len (w w' : List (BitVec 64)) (h h' : List (BitVec 64)) : Len (Model.Leak.Echo.final512 w h) (Model.Leak.Echo.final512 w' h') := by
  unfold Model.Leak.Echo.final512
  len []

theorem poke_erase (h : List (BitVec 64)) (off : Nat) (b : Bytes) : L.erase (Model.Leak.Echo.poke h off b) = Model.Locals.Echo.poke h off b := by
  unfold Model.Leak.Echo.poke Model.Locals.Echo.poke
  erase_simp []

theorem poke_len (h h' : List (BitVec 64)) (off : Nat) (b b' : Bytes) : Len (Model.Leak.Echo.poke h off b) (Model.Leak.Echo.poke h' off b') := by
  unfold Model.Leak.Echo.poke
  len []

theorem copyIn_erase (hs : Nat) (mp : Option Bytes) (blk : Nat) (delta : Nat) (h : List (BitVec 64)) : L.erase (Model.Leak.Echo.copyIn hs mp blk delta h) = Model.Locals.Echo.copyIn hs mp blk delta h := by
  unfold Model.Leak.Echo.copyIn Model.Locals.Echo.copyIn
  cases mp with
  | none => erase_simp []
  | some p => erase_simp [Echo.poke_erase]

theorem copyIn_len (hs : Nat) (p p' : Bytes) (blk : Nat) (delta delta' : Nat) (h h' : List (BitVec 64)) : Len (Model.Leak.Echo.copyIn hs (some p) blk delta h) (Model.Leak.Echo.copyIn hs (some p') blk delta' h') := by
  unfold Model.Leak.Echo.copyIn
  len [(poke_len _ _ _ _ _)]

theorem block_erase (hs : Nat) (salt : List (BitVec 64)) (total : BitVec 64) (w : List (BitVec 64)) (mp : Option Bytes) (addedbits : Bool) (blk : Nat) (s : List (BitVec 64) × Nat) : L.erase (Model.Leak.Echo.block hs salt total w mp addedbits blk s) = Model.Locals.Echo.block hs salt total w mp addedbits blk s := by
  unfold Model.Leak.Echo.block Model.Locals.Echo.block
  erase_simp [Echo.rounds_erase, Echo.final256_erase, Echo.final512_erase, Echo.copyIn_erase]

theorem block_len (hs : Nat) (salt salt' : List (BitVec 64)) (total total' : BitVec 64) (w w' : List (BitVec 64)) (p p' : Bytes) (addedbits : Bool) (blk : Nat) (s s' : List (BitVec 64) × Nat) : Len (Model.Leak.Echo.block hs salt total w (some p) addedbits blk s) (Model.Leak.Echo.block hs salt' total' w' (some p') addedbits blk s') := by
  unfold Model.Leak.Echo.block
  len [(Echo.rounds_len _ _ _ _ _), (Echo.final256_len _ _ _ _), (Echo.final512_len _ _ _ _), (copyIn_len _ _ _ _ _ _ _ _)]

theorem transform_erase (hs : Nat) (salt : List (BitVec 64)) (total : BitVec 64) (k : Nat → List (BitVec 64)) (mp : Option Bytes) (n : Nat) (addedbits : Bool) (addtototal : Nat) (h : List (BitVec 64)) : L.erase (Model.Leak.Echo.transform hs salt total k mp n addedbits addtototal h) = Model.Locals.Echo.transform hs salt total k mp n addedbits addtototal h := by
  unfold Model.Leak.Echo.transform Model.Locals.Echo.transform
  erase_simp [Echo.block_erase]

theorem transform_len (hs : Nat) (salt salt' : List (BitVec 64)) (total total' : BitVec 64) (k k' : Nat → List (BitVec 64)) (p p' : Bytes) (n : Nat) (addedbits : Bool) (addtototal : Nat) (h h' : List (BitVec 64)) : Len (Model.Leak.Echo.transform hs salt total k (some p) n addedbits addtototal h) (Model.Leak.Echo.transform hs salt' total' k' (some p') n addedbits addtototal h') := by
  unfold Model.Leak.Echo.transform
  len [(Echo.block_len _ _ _ _ _ _ _ _ _ _ _ _ _)]

end Digestpp.Proofs.Leak.Echo
