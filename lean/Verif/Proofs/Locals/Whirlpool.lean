import Verif.Model.Locals.Whirlpool
import Verif.Model.Locals.Streebog
import Verif.Proofs.Locals.Groestl
import Verif.Proofs.SafetyShake

/-! C58, Whirlpool and Streebog. -/

namespace Digestpp.Proofs.Locals
open Model

theorem wr8 {α : Type} (L : List α) (h : L.length = 8) (v0 v1 v2 v3 v4 v5 v6 v7 : α) :
    (do
      let L ← wr L 0 v0
      let L ← wr L 1 v1
      let L ← wr L 2 v2
      let L ← wr L 3 v3
      let L ← wr L 4 v4
      let L ← wr L 5 v5
      let L ← wr L 6 v6
      wr L 7 v7) = (.ok [v0, v1, v2, v3, v4, v5, v6, v7] : M (List α)) := by
  obtain ⟨a, b, c, d, e, f, g, i, rfl⟩ := len8 h
  rfl

theorem upd8 (L : List (BitVec 64)) (h : L.length = 8) (v0 v1 v2 v3 v4 v5 v6 v7 : BitVec 64) :
    (do
      let L ← upd L 0 (· ^^^ v0)
      let L ← upd L 1 (· ^^^ v1)
      let L ← upd L 2 (· ^^^ v2)
      let L ← upd L 3 (· ^^^ v3)
      let L ← upd L 4 (· ^^^ v4)
      let L ← upd L 5 (· ^^^ v5)
      let L ← upd L 6 (· ^^^ v6)
      upd L 7 (· ^^^ v7)) = (.ok [L.getD 0 0 ^^^ v0, L.getD 1 0 ^^^ v1, L.getD 2 0 ^^^ v2, L.getD 3 0 ^^^ v3, L.getD 4 0 ^^^ v4, L.getD 5 0 ^^^ v5,
        L.getD 6 0 ^^^ v6, L.getD 7 0 ^^^ v7] : M (List (BitVec 64))) := by
  obtain ⟨a, b, c, d, e, f, g, i, rfl⟩ := len8 h
  rfl

namespace Whirlpool
open Model.Whirlpool

theorem T_ok : Tables whirlpool_T := tables_ok _ (by decide +kernel) (by decide +kernel)

theorem G_ok (a : Nat) (ll : List (BitVec 64)) (h : ll.length = 8) : Locals.Whirlpool.G a ll = .ok (G a ll) := by
  unfold Locals.Whirlpool.G
  rw [cell_ok T_ok ll 8 h (by omega)]
  rfl

theorem RC_length : whirlpool_RC.length = 10 := by decide +kernel

theorem key_ok (r : Nat) (hr : r < 10) (K L : List (BitVec 64)) (hK : K.length = 8) (hL : L.length = 8) : Locals.Whirlpool.key r K L = .ok (nextKey r K) := by
  unfold Locals.Whirlpool.key
  simp only [G_ok _ K hK, ok_then, rd_ok 0 (a := whirlpool_RC) (i := r) (by rw [RC_length]; exact hr)]
  rw [wr8 L hL]
  rfl

theorem add_ok (state L : List (BitVec 64)) (hK : state.length = 8) (hL : L.length = 8) : Locals.Whirlpool.add state L = .ok (nextState L state) := by
  unfold Locals.Whirlpool.add
  simp only [G_ok _ state hK, ok_then]
  rw [upd8 L hL]
  rfl

theorem round_ok (L : Nat → List (BitVec 64)) (hL : ∀ r, (L r).length = 8) (r : Nat) (hr : r < 10) (ks : List (BitVec 64) × List (BitVec 64))
    (h1 : ks.1.length = 8) (h2 : ks.2.length = 8) : Locals.Whirlpool.round L r ks = .ok (nextKey r ks.1, nextState (nextKey r ks.1) ks.2) := by
  unfold Locals.Whirlpool.round
  rw [key_ok r hr ks.1 _ h1 (hL r), ok_then, copyN_ok h1 rfl, ok_then, add_ok _ _ h2 rfl, ok_then, copyN_ok h2 rfl, ok_then]
  rfl

theorem block_ok (k : Locals.Whirlpool.Stack) (hk : k.Sized) (mp b : Bytes) (h : List (BitVec 64)) (hh : h.length = 8)
    (hm : ∀ c, c < 8 → rd64 mp c = .ok ((loads64 8 b).getD c 0)) : Locals.Whirlpool.block k mp h = .ok (compress b h) := by
  obtain ⟨k1, k2, k3⟩ := hk
  unfold Locals.Whirlpool.block
  rw [copyN_ok k1 hh, ok_then,
    fill_all 0 (fun i => h.getD i 0 ^^^ (loads64 8 b).getD i 0) 8 0 (by omega) _ k.state k2 (by omega) (fun t a _ ht ha _ => by
      rw [rd_ok 0 (by omega), ok_then, hm t ht, ok_then, wr_ok _ (by omega)]), ok_then]
  obtain ⟨e, i1, i2⟩ := loop_eq (fun (ks : List (BitVec 64) × List (BitVec 64)) r => (nextKey r ks.1, nextState (nextKey r ks.1) ks.2))
    (fun _ ks => ks.1.length = 8 ∧ ks.2.length = 8) 0 10 (by omega) (Locals.Whirlpool.round k.L) (h, (List.range 8).map fun i => h.getD i 0 ^^^ (loads64 8 b).getD i 0)
    ⟨hh, by simp⟩ (fun t ks _ ht hks => ⟨round_ok k.L k3 t ht ks hks.1 hks.2, rfl, rfl⟩)
  rw [e, ok_then]
  refine Eq.trans (fill_upd_all 0 (fun i => h.getD i 0 ^^^ ((rounds (h, (List.range 8).map fun i => h.getD i 0 ^^^ (loads64 8 b).getD i 0)).2.getD i 0 ^^^
    (loads64 8 b).getD i 0)) 8 _ h hh fun t x ht hx hv => ?_) rfl
  rw [rd_ok 0 (by omega), ok_then, hm t ht, ok_then, upd_ok _ 0 (by omega), hv]
  rfl

theorem transform_eq (k : Nat → Locals.Whirlpool.Stack) (hk : ∀ i, (k i).Sized) (data : Bytes) (n : Nat) (hd : n * 64 ≤ data.length)
    (s : Blk (List (BitVec 64))) (hs : s.h.length = 8) : Locals.Whirlpool.transform k data n s = Whirlpool.transform data n s := by
  unfold Locals.Whirlpool.transform Whirlpool.transform
  rw [blocks_eq 64 data n hd (fun h : List (BitVec 64) => h.length = 8) _ (fun _ b h => pure (compress b h)) ?_ _ hs]
  intro blk b h _ hr _ hh
  refine ⟨block_ok _ (hk blk) _ b h hh fun c hc => rd64_drop hr (by omega) _ hc, fun h' e => ?_⟩
  cases e
  simp [compress]

end Whirlpool

namespace Streebog
open Model.Streebog

theorem T_ok : Tables streebog_T := tables_ok _ (by decide +kernel) (by decide +kernel)

theorem RC_ok : streebog_RC.length = 12 ∧ ∀ row ∈ streebog_RC, row.length = 8 :=
  ⟨by decide +kernel, by decide +kernel⟩

theorem look_ok (ch : Bytes) (j i : Nat) (hj : j < 8) (hi : i < ch.length) :
    Locals.Streebog.look ch j i = .ok ((streebog_T.getD j []).getD (ch.getD i 0).toNat 0) := by
  obtain ⟨h1, h2⟩ := T_ok
  have hb : (ch.getD i 0).toNat < 256 := (ch.getD i 0).isLt
  have hr := h2 _ (Skein.getD_mem streebog_T j [] (by omega))
  unfold Locals.Streebog.look
  rw [rd_ok [] (by omega), ok_then, rd_ok 0 hi, ok_then, rd_ok 0 (by omega)]

theorem lps_ok (I : Nat) (hI : I < 8) (ch : Bytes) (h : ch.length = 64) : Locals.Streebog.lps I ch = .ok (lps I ch) := by
  unfold Locals.Streebog.lps
  rw [look_ok ch 0 _ (by omega) (by omega), ok_then, look_ok ch 1 _ (by omega) (by omega), ok_then, look_ok ch 2 _ (by omega) (by omega), ok_then,
    look_ok ch 3 _ (by omega) (by omega), ok_then, look_ok ch 4 _ (by omega) (by omega), ok_then, look_ok ch 5 _ (by omega) (by omega), ok_then,
    look_ok ch 6 _ (by omega) (by omega), ok_then, look_ok ch 7 _ (by omega) (by omega), ok_then]
  rfl

theorem lpsBlock_ok (ch : Bytes) (h : ch.length = 64) (block : List (BitVec 64)) (hb : block.length = 8) :
    Locals.Streebog.lpsBlock ch block = .ok (lpsBlock block) := by
  have hl : (stores64 block).length = 64 := by rw [Safety.length_stores64, hb]
  unfold Locals.Streebog.lpsBlock
  rw [copyN_ok h hl, ok_then]
  simp only [lps_ok _ (by omega : 0 < 8) _ hl, lps_ok _ (by omega : 1 < 8) _ hl, lps_ok _ (by omega : 2 < 8) _ hl, lps_ok _ (by omega : 3 < 8) _ hl,
    lps_ok _ (by omega : 4 < 8) _ hl, lps_ok _ (by omega : 5 < 8) _ hl, lps_ok _ (by omega : 6 < 8) _ hl, lps_ok _ (by omega : 7 < 8) _ hl, ok_then]
  rw [wr8 block hb]
  rfl

theorem xorBlocks_ok (f : Nat → M (BitVec 64)) (x block : List (BitVec 64)) (hb : block.length = 8) (hf : ∀ i, i < 8 → f i = .ok (x.getD i 0)) :
    Locals.Streebog.xorBlocks f block = .ok (xorBlocks block x) := by
  unfold Locals.Streebog.xorBlocks
  simp only [hf 0 (by omega), hf 1 (by omega), hf 2 (by omega), hf 3 (by omega), hf 4 (by omega), hf 5 (by omega), hf 6 (by omega), hf 7 (by omega), ok_then]
  rw [upd8 block hb]
  rfl

theorem xorBlocks_length (a b : List (BitVec 64)) : (xorBlocks a b).length = 8 := by simp [xorBlocks]

theorem lpsBlock_length (a : List (BitVec 64)) : (lpsBlock a).length = 8 := rfl

theorem round_ok (ch : Nat → Bytes) (hc : ∀ j, (ch j).length = 64) (i : Nat) (hi : i < 12) (kt : List (BitVec 64) × List (BitVec 64)) (h1 : kt.1.length = 8)
    (h2 : kt.2.length = 8) :
    Locals.Streebog.round ch i kt = .ok (xorBlocks (lpsBlock kt.1) (lpsBlock (xorBlocks kt.2 (streebog_RC.getD i []))), lpsBlock (xorBlocks kt.2 (streebog_RC.getD i []))) := by
  have hr := RC_ok.2 _ (Skein.getD_mem streebog_RC i [] (by rw [RC_ok.1]; exact hi))
  unfold Locals.Streebog.round
  rw [lpsBlock_ok _ (hc _) _ h1, ok_then, rd_ok [] (by rw [RC_ok.1]; exact hi), ok_then,
    xorBlocks_ok _ (streebog_RC.getD i []) _ h2 (fun j hj => rd_ok 0 (by omega)), ok_then, lpsBlock_ok _ (hc _) _ (xorBlocks_length _ _), ok_then,
    xorBlocks_ok _ (lpsBlock (xorBlocks kt.2 (streebog_RC.getD i []))) _ (lpsBlock_length _) (fun j hj => rd_ok 0 (by rw [lpsBlock_length]; exact hj)), ok_then]
  rfl

theorem e_ok (ch : Nat → Bytes) (hc : ∀ j, (ch j).length = 64) (tmp K : List (BitVec 64)) (ht : tmp.length = 8) (hK : K.length = 8) (m b : Bytes)
    (hm : ∀ c, c < 8 → rd64 m c = .ok ((loads64 8 b).getD c 0)) : Locals.Streebog.e ch tmp K m = .ok (e K b) := by
  unfold Locals.Streebog.e
  rw [copyN_ok ht hK, ok_then, xorBlocks_ok _ _ _ hK hm, ok_then]
  obtain ⟨e, -⟩ := loop_eq (fun (kt : List (BitVec 64) × List (BitVec 64)) i =>
      (xorBlocks (lpsBlock kt.1) (lpsBlock (xorBlocks kt.2 (streebog_RC.getD i []))), lpsBlock (xorBlocks kt.2 (streebog_RC.getD i []))))
    (fun _ kt => kt.1.length = 8 ∧ kt.2.length = 8) 0 12 (by omega) (Locals.Streebog.round ch) (xorBlocks K (loads64 8 b), K) ⟨xorBlocks_length _ _, hK⟩
    (fun t kt _ ht hkt => ⟨round_ok ch hc t ht kt hkt.1 hkt.2, xorBlocks_length _ _, lpsBlock_length _⟩)
  rw [e, ok_then]
  rfl

theorem e_length (K : List (BitVec 64)) (b : Bytes) : (e K b).length = 8 := by
  unfold e
  have : ∀ (l : List Nat) (kt : List (BitVec 64) × List (BitVec 64)), kt.1.length = 8 →
      (l.foldl (fun (K, tmp) i =>
        let K := lpsBlock K
        let tmp := lpsBlock (xorBlocks tmp (streebog_RC.getD i []))
        (xorBlocks K tmp, tmp)) kt).1.length = 8 := by
    intro l
    induction l with
    | nil => exact fun _ h => h
    | cons i l ih => exact fun kt _ => ih _ (xorBlocks_length _ _)
  exact this _ _ (xorBlocks_length _ _)

theorem gN_ok (k : Locals.Streebog.Stack) (hk : k.Sized) (h : List (BitVec 64)) (hh : h.length = 8) (m b : Bytes) (N : BitVec 64)
    (hm : ∀ c, c < 8 → rd64 m c = .ok ((loads64 8 b).getD c 0)) : Locals.Streebog.gN k h m N = .ok (gN h b N) := by
  obtain ⟨k1, k2, k3⟩ := hk
  unfold Locals.Streebog.gN
  rw [copyN_ok k3 hh, ok_then, upd_ok _ 0 (by omega), ok_then, lpsBlock_ok _ (k1 0) _ (by rw [List.length_set, hh]), ok_then,
    e_ok k.ch k1 _ _ k2 (lpsBlock_length _) m b hm, ok_then,
    xorBlocks_ok _ (e (lpsBlock (h.set 0 (h.getD 0 0 ^^^ N))) b) _ hh (fun j hj => rd_ok 0 (by rw [e_length]; exact hj)), ok_then,
    xorBlocks_ok _ _ _ (xorBlocks_length _ _) hm]
  rfl

theorem addm_ok (m b : Bytes) (h : List (BitVec 64)) (hh : h.length = 8) (hm : ∀ c, c < 8 → rd64 m c = .ok ((loads64 8 b).getD c 0)) :
    Locals.Streebog.addm m h = .ok (addm b h) ∧ (addm b h).length = 8 := by
  unfold Locals.Streebog.addm addm
  obtain ⟨e, i⟩ := loop_eq (fun (hc : List (BitVec 64) × Bool) i =>
      let t := hc.1.getD i 0 + (loads64 8 b).getD i 0
      let overflow := t < hc.1.getD i 0 || t < (loads64 8 b).getD i 0
      (hc.1.set i (t + if hc.2 then 1 else 0), overflow))
    (fun _ hc => hc.1.length = 8) 0 8 (by omega) (fun i (hc : List (BitVec 64) × Bool) => do
    let x ← rd hc.1 i
    let y ← rd64 m i
    let t := x + y
    let x ← rd hc.1 i
    let y ← rd64 m i
    let overflow := t < x || t < y
    let h ← wr hc.1 i (t + if hc.2 then 1 else 0)
    pure (h, overflow)) (h, false) hh (fun t hc _ ht hl => by
      constructor
      · simp only [rd_ok 0 (a := hc.1) (i := t) (by omega), hm t ht, ok_then]
        rw [wr_ok _ (by omega), ok_then]
        rfl
      · show (hc.1.set t _).length = 8
        rw [List.length_set, hl])
  constructor
  · rw [e, ok_then]
    rfl
  · exact i

theorem transform_eq (k : Nat → Locals.Streebog.Stack) (hk : ∀ i, (k i).Sized) (final : Bool) (data : Bytes) (n : Nat) (hd : n * 64 ≤ data.length)
    (s : Blk St) (hs : s.h.h.length = 8) (hS : s.h.S.length = 8) : Locals.Streebog.transform k final data n s = Streebog.transform addm final data n s := by
  unfold Locals.Streebog.transform Streebog.transform
  rw [blocks_eq 64 data n hd (fun h : St => h.h.length = 8 ∧ h.S.length = 8) _ (fun blk b h =>
    pure { h with
      h := gN h.h b (if final then 0 else s.total + BitVec.ofNat 64 (blk * 512))
      S := if final then h.S else addm b h.S }) ?_ _ ⟨hs, hS⟩]
  intro blk b h _ hr _ hh
  have hm : ∀ c, c < 8 → rd64 (data.drop (blk * 64)) c = .ok ((loads64 8 b).getD c 0) := fun c hc => rd64_drop hr (by omega) _ hc
  refine ⟨?_, fun h' e => ?_⟩
  · rw [gN_ok _ (hk blk) h.h hh.1 _ b _ hm, ok_then]
    cases final
    · simp only [Bool.false_eq_true, if_false]
      rw [(addm_ok _ b h.S hh.2 hm).1, ok_then]
    · rfl
  · cases e
    refine ⟨xorBlocks_length _ _, ?_⟩
    cases final
    · exact (addm_ok _ b h.S hh.2 hm).2
    · exact hh.2

end Streebog
end Digestpp.Proofs.Locals
