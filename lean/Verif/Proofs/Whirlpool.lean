import Verif.Model.Whirlpool
import Verif.Spec.Whirlpool
import Verif.Proofs.Pack
import Verif.Proofs.MdFinal
import Verif.Proofs.Api

/-! The WHIRLPOOL provider computes WHIRLPOOL. -/

namespace Digestpp.Proofs.Whirlpool
open Model Spec Spec.Whirlpool

theorem T0_eq : whirlpool_T0 = (List.range 256).map (fun v => pack fun i => mul (sbox (BitVec.ofNat 8 v)) (C 0 i)) := by
  decide +kernel

theorem Tr_eq : ∀ r, r < 8 → whirlpool_T.getD r [] = whirlpool_T0.map (fun x => x.rotateLeft (8 * r)) := by decide +kernel

theorem RC_eq : ∀ r, r < 10 → whirlpool_RC.getD r 0 = pack fun j => const r 0 j := by decide +kernel

theorem look_pack (r : Nat) (hr : r < 8) (f : Nat → Byte) :
    Model.Whirlpool.look r (pack f) = pack fun i => mul (sbox (f r)) (C r i) := by
  unfold Model.Whirlpool.look
  rw [byte_pack _ _ hr, Tr_eq r hr, T0_eq, List.map_map, getD_map_range _ _ _ _ (f r).isLt]
  show BitVec.rotateLeft (pack _) (8 * r) = _
  rw [rotateLeft_pack _ _ hr, BitVec.ofNat_toNat, BitVec.setWidth_eq]
  apply pack_congr
  intro i hi
  congr 1
  unfold C
  congr 1
  omega

/-- The rows of a matrix as words. -/
def rowWords (A : Mat) : List (BitVec 64) := colWords 8 fun j i => A i j

theorem getD_rowWords (A : Mat) (i : Nat) (h : i < 8) : (rowWords A).getD i 0 = pack fun j => A i j := getD_colWords _ _ _ h

theorem G_eq (a : Nat) (A : Mat) : Model.Whirlpool.G (a + 8) (rowWords A) = pack fun j => theta (pi (gamma A)) a j := by
  unfold Model.Whirlpool.G
  have hm : ∀ x, x % 8 < 8 := fun x => Nat.mod_lt _ (by omega)
  simp only [getD_rowWords _ _ (hm _)]
  rw [look_pack 0 (by omega), look_pack 1 (by omega), look_pack 2 (by omega), look_pack 3 (by omega), look_pack 4 (by omega),
    look_pack 5 (by omega), look_pack 6 (by omega), look_pack 7 (by omega)]
  exact pack_xor8 fun k j => mul (sbox (A ((a + 8 - k) % 8) k)) (C k j)

theorem rows8 (A : Mat) : rowWords A = [pack fun j => A 0 j, pack fun j => A 1 j, pack fun j => A 2 j, pack fun j => A 3 j,
    pack fun j => A 4 j, pack fun j => A 5 j, pack fun j => A 6 j, pack fun j => A 7 j] := rfl

theorem nextKey_eq (r : Nat) (hr : r < 10) (A : Mat) :
    Model.Whirlpool.nextKey r (rowWords A) = rowWords (rho (const r) A) := by
  have hz : ∀ i, i ≠ 0 → (pack fun j => theta (pi (gamma A)) i j) = pack fun j => rho (const r) A i j := by
    intro i hi
    apply pack_congr
    intro j _
    show _ = _ ^^^ const r i j
    unfold const
    rw [if_neg hi]
    exact BitVec.xor_zero.symm
  unfold Model.Whirlpool.nextKey
  rw [G_eq, G_eq, G_eq, G_eq, G_eq, G_eq, G_eq, G_eq, RC_eq r hr, rows8, pack_xor, hz 1 (by omega), hz 2 (by omega), hz 3 (by omega),
    hz 4 (by omega), hz 5 (by omega), hz 6 (by omega), hz 7 (by omega)]
  rfl

theorem nextState_eq (K A : Mat) : Model.Whirlpool.nextState (rowWords K) (rowWords A) = rowWords (rho K A) := by
  have hz : ∀ i, (pack fun j => K i j) ^^^ (pack fun j => theta (pi (gamma A)) i j) = pack fun j => rho K A i j := by
    intro i
    rw [pack_xor]
    apply pack_congr
    intro j _
    exact BitVec.xor_comm _ _
  unfold Model.Whirlpool.nextState
  rw [getD_rowWords _ 0 (by omega), getD_rowWords _ 1 (by omega), getD_rowWords _ 2 (by omega), getD_rowWords _ 3 (by omega),
    getD_rowWords _ 4 (by omega), getD_rowWords _ 5 (by omega), getD_rowWords _ 6 (by omega), getD_rowWords _ 7 (by omega)]
  rw [G_eq, G_eq, G_eq, G_eq, G_eq, G_eq, G_eq, G_eq, rows8, hz, hz, hz, hz, hz, hz, hz, hz]

theorem rounds_eq (K A : Mat) : Model.Whirlpool.rounds (rowWords K, rowWords A)
    = (rowWords (key K 10), rowWords ((List.range 10).foldl (fun A r => rho (key K (r + 1)) A) A)) := by
  unfold Model.Whirlpool.rounds
  have : ∀ n, n ≤ 10 → (List.range n).foldl (fun (x : List (BitVec 64) × List (BitVec 64)) r =>
      (Model.Whirlpool.nextKey r x.1, Model.Whirlpool.nextState (Model.Whirlpool.nextKey r x.1) x.2)) (rowWords K, rowWords A)
      = (rowWords (key K n), rowWords ((List.range n).foldl (fun A r => rho (key K (r + 1)) A) A)) := by
    intro n hn
    induction n with
    | zero => rfl
    | succ n ih =>
      rw [List.range_succ, List.foldl_append, List.foldl_append, ih (by omega)]
      show (Model.Whirlpool.nextKey n (rowWords (key K n)), Model.Whirlpool.nextState (Model.Whirlpool.nextKey n (rowWords (key K n)))
        (rowWords _)) = _
      rw [nextKey_eq n (by omega), nextState_eq]
      rfl
  exact this 10 (Nat.le_refl _)

theorem loads_eq (b : Bytes) : loads64 8 b = rowWords (mu b) := loads64_mat 8 b

theorem rowWords_xor (A B : Mat) :
    ((List.range 8).map fun j => (rowWords A).getD j 0 ^^^ (rowWords B).getD j 0) = rowWords (matXor A B) := colWords_xor 8 _ _

theorem matXor_comm (A B : Mat) : matXor A B = matXor B A := by
  funext i j
  exact BitVec.xor_comm _ _

theorem matXor_assoc (A B C : Mat) : matXor (matXor A B) C = matXor A (matXor B C) := by
  funext i j
  exact BitVec.xor_assoc _ _ _

theorem compress_eq (b : Bytes) (H : Mat) : Model.Whirlpool.compress b (rowWords H) = rowWords (compress H (mu b)) := by
  unfold Model.Whirlpool.compress
  rw [loads_eq]
  dsimp only
  rw [rowWords_xor, rounds_eq]
  unfold compress W
  rw [matXor_comm (mu b), show key H 0 = H from rfl]
  show ((List.range 8).map fun i => (rowWords H).getD i 0 ^^^ ((rowWords _).getD i 0 ^^^ (rowWords _).getD i 0)) = _
  generalize (List.range 10).foldl _ _ = X
  rw [matXor_comm X, matXor_assoc, ← rowWords_xor H, ← rowWords_xor X]
  apply List.map_congr_left
  intro i hi
  rw [getD_map_range _ _ _ _ (List.mem_range.mp hi)]

/-- The block function. -/
def step (b : Bytes) (h : List (BitVec 64)) : List (BitVec 64) := Model.Whirlpool.compress b h

theorem isCompress : IsCompress 64 (fun _ => True) step Model.Whirlpool.transform :=
  isCompress_of (compress := fun b h => pure (Model.Whirlpool.compress b h)) (fun _ _ _ _ => ⟨rfl, trivial⟩) (fun _ _ _ => rfl)

/-- `s` has absorbed `msg`. -/
def R (_ : Unit) (msg : Bytes) (s : Blk (List (BitVec 64))) : Prop :=
  Buffered 64 0 64 (fun _ b h => step b h) (rowWords fun _ _ => 0) msg s

theorem iv_eq : List.replicate 8 (0 : BitVec 64) = rowWords fun _ _ => 0 := by decide

theorem init_ok (s : Blk (List (BitVec 64))) (hm : s.m.length = 64) :
    ∃ s', Model.Whirlpool.init s = .ok s' ∧ R () [] s' :=
  ⟨_, rfl, by unfold R; exact Buffered.start _ _ hm rfl rfl iv_eq⟩

theorem final_ok (msg : Bytes) (s : Blk (List (BitVec 64))) (hR : R () msg s) :
    Model.Whirlpool.final s = .ok (Spec.Whirlpool.hashWith wrap64 msg) := by
  obtain ⟨s', e, h, -⟩ := mdFinal_spec (lf := 32) (limit := 32) (fill := 56) (enc := fun total => bytes64 (byteswap64 total))
    isCompress (by omega) (by omega) rfl (by omega) (by omega) (by omega) (fun _ => rfl) msg s hR trivial
  unfold Model.Whirlpool.final
  rw [e, ok_bind, h]
  have hpad : List.replicate (32 - 8) (0 : Byte) ++ bytes64 (byteswap64 (BitVec.ofNat 64 (8 * msg.length)))
      = beBytes 32 (wrap64 (8 * msg.length)) := by
    rw [bytes64_byteswap_ofNat, ← beBytes8_wrap64]
    exact (beBytes_pad 24 8 _ (wrap64_lt _)).symm
  rw [hpad, foldBlocks_conj rowWords (step' := fun _ b h => step b h) (step := fun _ b h => compress h (mu b))
    (fun _ b H => compress_eq b H)]
  unfold Spec.Whirlpool.hashWith
  dsimp only
  generalize foldBlocks _ _ _ _ _ = X
  have hs : stores64 (rowWords X) = (List.range 8).flatMap fun i => (List.range 8).map fun j => X i j := stores64_mat 8 _
  rw [readBytes_ok _ _ _ (by rw [hs]; exact Nat.le_refl 64), hs]
  rfl

theorem refines : HashRefines Model.Whirlpool.provider whirlpoolWrap (Cover.all Empty) R where
  init := fun _ _ s h => init_ok s h.mlen
  update := fun _ msg s data h hd =>
    absorbBytes_spec (by omega) (by omega) (by omega) (by omega) isCompress.isTransform (fun _ _ _ _ _ => trivial)
      trivial msg data s h hd
  final := fun _ msg s h _ => final_ok msg s h
  clear := fun _ _ _ s h =>
    have ⟨s', e, r⟩ := init_ok { s with h := List.replicate 8 0, m := zeroBytes s.m } (by simp [zeroBytes, h.mlen])
    ⟨_, s', rfl, e, r⟩
  size := fun _ _ _ _ => by show 512 / 8 = 64; rfl
  size_pos := by decide
  digest_length := fun _ msg _ _ _ => rfl
  set := nofun

end Digestpp.Proofs.Whirlpool
