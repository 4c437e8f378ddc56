import Verif.Proofs.Locals.Sha2
import Verif.Proofs.Locals.Sha1
import Verif.Proofs.Locals.Sha3
import Verif.Proofs.Locals.Blake
import Verif.Proofs.Locals.Skein
import Verif.Proofs.Locals.Groestl
import Verif.Proofs.Locals.Whirlpool
import Verif.Proofs.Locals.Lsh
import Verif.Proofs.Locals.Jh
import Verif.Proofs.Locals.Echo
import Verif.Proofs.Locals.Esch
import Verif.Proofs.Locals.Ascon
import Verif.Proofs.Safety

/-! C58: the transformation functions of the model give a result for every block. -/

namespace Digestpp.Proofs.Locals
open Model

/-- `x` has a result. -/
def Total {α : Type} (x : M α) : Prop := ∃ a, x = .ok a

namespace Total
variable {α β ι : Type}

theorem pure (a : α) : Total (Pure.pure a) := ⟨a, rfl⟩

theorem bind {x : M α} {f : α → M β} (h : Total x) (k : ∀ a, Total (f a)) : Total (x >>= f) := by
  obtain ⟨a, rfl⟩ := h
  exact k a

theorem foldlM {f : α → ι → M α} : ∀ (l : List ι), (∀ i ∈ l, ∀ a, Total (f a i)) → ∀ a, Total (l.foldlM f a)
  | [], _, a => ⟨a, rfl⟩
  | i :: l, h, a => by
    rw [List.foldlM_cons]
    exact bind (h i (by simp) a) fun a => foldlM l (fun i hi => h i (by simp [hi])) a

theorem mapM {f : ι → M α} (h : ∀ i, Total (f i)) : ∀ l : List ι, Total (l.mapM f)
  | [] => ⟨[], rfl⟩
  | i :: l => by
    rw [List.mapM_cons]
    exact bind (h i) fun a => bind (mapM h l) fun b => pure _

theorem blocks {σ : Type} {bs : Nat} {step : Nat → Bytes → σ → M σ} (h : ∀ i b s, Total (step i b s)) (data : Bytes) (n : Nat) (hn : n * bs ≤ data.length) (s : σ) :
    Total (forBlocks bs data n step s) := by
  obtain ⟨s', e, -⟩ := forBlocks_safe (inv := fun _ => True) (fun i b s _ _ => (h i b s).imp fun _ e => ⟨e, trivial⟩) data n s hn trivial
  exact ⟨s', e⟩

end Total

theorem rotl_total {w : Nat} (x : BitVec w) (n : Nat) (h : 0 < n ∧ n < w) : Total (rotlChecked x n) := ⟨_, if_pos h⟩

theorem Md5.round_total (r : Nat) (hr : 0 < md5_S.getD r 0 ∧ md5_S.getD r 0 < 32) (a b c d : BitVec 32) (Mw : List (BitVec 32)) :
    Total (Md5.roundf r a b c d Mw) ∧ Total (Md5.roundg r a b c d Mw) ∧ Total (Md5.roundh r a b c d Mw) ∧ Total (Md5.roundi r a b c d Mw) :=
  ⟨(rotl_total _ _ hr).bind fun _ => .pure _, (rotl_total _ _ hr).bind fun _ => .pure _, (rotl_total _ _ hr).bind fun _ => .pure _, (rotl_total _ _ hr).bind fun _ => .pure _⟩

theorem Md5.four_total (f : Md5.Round) (Mw : List (BitVec 32)) (v : Md5.Vars) (r : Nat) (h : ∀ i, i < 4 → ∀ a b c d, Total (f (r + i) a b c d Mw)) : Total (Md5.four f Mw v r) := by
  obtain ⟨a, b, c, d⟩ := v
  exact (h 0 (by omega) _ _ _ _).bind fun _ => (h 1 (by omega) _ _ _ _).bind fun _ => (h 2 (by omega) _ _ _ _).bind fun _ => (h 3 (by omega) _ _ _ _).bind fun _ => .pure _

theorem Md5.compress_total (b : Bytes) (H : List (BitVec 32)) : Total (Md5.compress b H) := by
  have t : ∀ r, r < 64 → 0 < md5_S.getD r 0 ∧ md5_S.getD r 0 < 32 := by decide
  unfold Md5.compress
  refine (Total.foldlM _ (fun r hr v => Md5.four_total _ _ v r fun i hi a b c d => (Md5.round_total _ (t _ ?_) a b c d _).1) _).bind fun v => ?_
  · simp at hr; omega
  refine (Total.foldlM _ (fun r hr v => Md5.four_total _ _ v r fun i hi a b c d => (Md5.round_total _ (t _ ?_) a b c d _).2.1) _).bind fun v => ?_
  · simp at hr; omega
  refine (Total.foldlM _ (fun r hr v => Md5.four_total _ _ v r fun i hi a b c d => (Md5.round_total _ (t _ ?_) a b c d _).2.2.1) _).bind fun v => ?_
  · simp at hr; omega
  refine (Total.foldlM _ (fun r hr v => Md5.four_total _ _ v r fun i hi a b c d => (Md5.round_total _ (t _ ?_) a b c d _).2.2.2) _).bind fun v => .pure _
  simp at hr; omega

theorem Md5.transform_total (data : Bytes) (n : Nat) (hd : n * 64 ≤ data.length) (s : Blk (List (BitVec 32))) : Total (Md5.transform data n s) :=
  (Total.blocks (fun _ b h => Md5.compress_total b h) data n hd s.h).bind fun _ => .pure _

theorem Sha1.transform_total (data : Bytes) (n : Nat) (hd : n * 64 ≤ data.length) (s : Blk (List (BitVec 32))) : Total (Sha1.transform data n s) :=
  (Total.blocks (fun _ _ _ => .pure _) data n hd s.h).bind fun _ => .pure _

theorem Sm3.transform_total (data : Bytes) (n : Nat) (hd : n * 64 ≤ data.length) (s : Blk (List (BitVec 32))) : Total (Sm3.transform rotlMasked data n s) := by
  have r : ∀ k ff gg W W2 v t, Total (Sm3.round rotlMasked k ff gg W W2 v t) := fun _ _ _ _ _ _ _ => Total.bind ⟨_, rfl⟩ fun _ => .pure _
  refine (Total.blocks (fun _ b h => ?_) data n hd s.h).bind fun _ => .pure _
  exact (Total.foldlM _ (fun _ _ _ => r _ _ _ _ _ _ _) _).bind fun _ => (Total.foldlM _ (fun _ _ _ => r _ _ _ _ _ _ _) _).bind fun _ => .pure _

theorem Sha2.transform_total {w : Nat} (T : Sha2.Word w) (data : Bytes) (n : Nat) (hd : n * (T.N / 4) ≤ data.length) (s : Blk (Sha2.St w)) :
    Total (Sha2.transform T data n s) :=
  (Total.blocks (fun _ _ _ => .pure _) data n hd s.h).bind fun _ => .pure _

theorem Sha3.transform_total (R rate : Nat) (hr : rate ≤ 1600) (data : Bytes) (n : Nat) (hd : n * (rate / 8) ≤ data.length) (A : List (BitVec 64)) :
    Total (Sha3.transform R rate data n A) := by
  refine Total.blocks (fun _ b A => ?_) data n hd A
  refine Total.bind ?_ fun _ => .pure _
  exact ⟨_, if_pos (by omega)⟩

theorem Blake.transform_total (padding final : Bool) (data : Bytes) (n : Nat) (s : Blk Blake.St) (hd : n * Blake.blockBytes s.h.hs ≤ data.length) :
    Total (Blake.transform padding final data n s) :=
  (Total.blocks (fun _ _ _ => .pure _) data n hd s.h).bind fun _ => .pure _

theorem Blake2.transform_total {w : Nat} (T : Blake2.Word w) (padding : Bool) (data : Bytes) (n : Nat) (hd : n * (2 * w) ≤ data.length) (s : Blk (Blake2.St w)) :
    Total (Blake2.transform T padding data n s) :=
  (Total.blocks (fun _ _ _ => .pure _) data n hd s.h).bind fun _ => .pure _

theorem Skein.transform_total {F : Skein.Fns} (hF : ∀ r, r < 8 → ∀ j, j < F.nw / 2 → 0 < (F.C.getD r []).getD j 0 ∧ (F.C.getD r []).getD j 0 < 64) (reallen : Nat) (data : Bytes)
    (n : Nat) (hd : n * (8 * F.nw) ≤ data.length) (s : Blk Skein.St) : Total (Skein.transform F reallen data n s) := by
  have g : ∀ r, r < 8 → ∀ G, Total (Skein.GTv4 F r G) := fun r hr G =>
    Total.foldlM _ (fun j hj G => (rotl_total _ _ (hF r hr j (List.mem_range.1 hj))).bind fun _ => .pure _) _
  have g8 : ∀ r keys tweaks G, Total (Skein.G8 F r keys tweaks G) := fun r keys tweaks G =>
    (g 0 (by omega) _).bind fun _ => (g 1 (by omega) _).bind fun _ => (g 2 (by omega) _).bind fun _ => (g 3 (by omega) _).bind fun _ =>
    (g 4 (by omega) _).bind fun _ => (g 5 (by omega) _).bind fun _ => (g 6 (by omega) _).bind fun _ => (g 7 (by omega) _).bind fun _ => .pure _
  refine (Total.blocks (fun _ b h => ?_) data n hd s.h).bind fun _ => .pure _
  exact (Total.foldlM _ (fun _ _ _ => g8 _ _ _ _) _).bind fun _ => .pure _

theorem Groestl.transform_total (data : Bytes) (n : Nat) (s : Blk Groestl.St) (hd : n * Groestl.blockBytes s.h.hs ≤ data.length) : Total (Groestl.transform data n s) :=
  (Total.blocks (fun _ _ _ => .pure _) data n hd s.h).bind fun _ => .pure _

theorem Kupyna.transform_total (data : Bytes) (n : Nat) (s : Blk Kupyna.St) (hd : n * Kupyna.blockBytes s.h.hs ≤ data.length) : Total (Kupyna.transform data n s) :=
  (Total.blocks (fun _ _ _ => .pure _) data n hd s.h).bind fun _ => .pure _

theorem Whirlpool.transform_total (data : Bytes) (n : Nat) (hd : n * 64 ≤ data.length) (s : Blk (List (BitVec 64))) : Total (Whirlpool.transform data n s) :=
  (Total.blocks (fun _ _ _ => .pure _) data n hd s.h).bind fun _ => .pure _

theorem Streebog.transform_total (add : Bytes → List (BitVec 64) → List (BitVec 64)) (final : Bool) (data : Bytes) (n : Nat) (hd : n * 64 ≤ data.length) (s : Blk Streebog.St) :
    Total (Streebog.transform add final data n s) :=
  (Total.blocks (fun _ _ _ => .pure _) data n hd s.h).bind fun _ => .pure _

theorem Lsh.transform_total {w : Nat} (T : Lsh.Word w) (data : Bytes) (n : Nat) (hd : n * Lsh.blockBytes w ≤ data.length) (s : Blk (Lsh.St w)) :
    Total (Lsh.transform rotlMasked T data n s) := by
  have st : ∀ i ra rb h, Total (Lsh.step rotlMasked T i ra rb h) := fun i ra rb h =>
    (Total.mapM (fun l => Total.bind ⟨_, rfl⟩ fun _ => .pure _) _).bind fun _ => .pure _
  refine (Total.blocks (fun _ b h => ?_) data n hd s.h).bind fun _ => .pure _
  exact (Total.foldlM _ (fun _ _ _ => (st _ _ _ _).bind fun _ => st _ _ _ _) _).bind fun _ => .pure _

theorem Jh.transform_total (data : Bytes) (n : Nat) (hd : n * 64 ≤ data.length) (s : Blk Jh.St) : Total (Jh.transform data n s) :=
  (Total.blocks (fun _ _ _ => .pure _) data n hd s.h).bind fun _ => .pure _

theorem Echo.transform_total (data : Bytes) (n : Nat) (s : Blk Echo.St) (hd : n * Echo.blockBytes s.h.hs ≤ data.length) (hm : s.m.length = Echo.blockBytes s.h.hs) :
    Total (Echo.transform data n s) := by
  obtain ⟨s', e, -⟩ := forBlocks_safe (bs := Echo.blockBytes s.h.hs) (inv := fun x : Blk Echo.St => x.m.length = Echo.blockBytes s.h.hs)
    (step := fun blk b x => do
      let counter := s.total + BitVec.ofNat 64 ((blk * Echo.blockBytes s.h.hs + Echo.blockBytes s.h.hs) * 8)
      let m ← memcpyTo x.m 0 b
      Pure.pure { x with m := m, h := Echo.compress counter m x.h }) (fun i b x hb hx => by
        unfold memcpyTo
        rw [if_pos (by omega)]
        exact ⟨_, rfl, by simp; omega⟩) data n s hd hm
  exact ⟨s', e⟩

theorem Esch.transform_total (lastBlock : Bool) (data : Bytes) (n : Nat) (hd : n * 16 ≤ data.length) (s : Blk Esch.St) : Total (Esch.transform lastBlock data n s) :=
  (Total.blocks (fun _ _ _ => .pure _) data n hd s.h).bind fun _ => .pure _

theorem Ascon.transform_total (data : Bytes) (n : Nat) (hd : n * 8 ≤ data.length) (s : Blk Ascon.St) : Total (Ascon.transform data n s) :=
  (Total.blocks (fun _ _ _ => .pure _) data n hd s.h.H).bind fun _ => .pure _

end Digestpp.Proofs.Locals
