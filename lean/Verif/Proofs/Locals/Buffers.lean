import Verif.Model.Locals.Buffers
import Verif.Proofs.Locals.Lsh
import Verif.Proofs.SafetyShake
import Verif.Proofs.SafetyAscon
import Verif.Proofs.Indep

/-! C58: the local arrays outside the transformation functions. -/

namespace Digestpp.Proofs.Locals
open Model

/-- Writing `k` elements downwards, the last at index `c`. -/
theorem fill_desc {α : Type} (val : Nat → α) (idx : Nat → Nat) (c k : Nat) (hidx : ∀ i, i < k → idx i = c + k - 1 - i) (a : List α) (hn : c + k ≤ a.length) :
    loop 0 k (fun i a => wr a (idx i) (val i)) a = .ok (a.take c ++ ((List.range k).map (fun j => val (k - 1 - j)) ++ a.drop (c + k))) := by
  obtain ⟨e, l, h⟩ := loop_eq (fun a i => a.set (idx i) (val i)) (fun t b => b.length = a.length ∧
      ∀ j, b[j]? = if c + k - t ≤ j ∧ j < c + k then some (val (c + k - 1 - j)) else a[j]?) 0 k (by omega) (fun i a => wr a (idx i) (val i)) a
    ⟨rfl, fun j => by rw [if_neg (by omega)]⟩ (fun t b _ ht hb => by
      obtain ⟨hb, hj⟩ := hb
      have hi := hidx t ht
      refine ⟨wr_ok _ (by omega), by rw [List.length_set, hb], fun j => ?_⟩
      rw [List.getElem?_set]
      by_cases h : idx t = j
      · subst h
        rw [if_pos rfl, if_pos (by omega), if_pos (by omega), hi, show c + k - 1 - (c + k - 1 - t) = t by omega]
      · rw [if_neg h, hj]
        by_cases h2 : c + k - t ≤ j ∧ j < c + k
        · rw [if_pos h2, if_pos (by omega)]
        · rw [if_neg h2, if_neg (by omega)])
  rw [e]
  congr 1
  refine List.ext_getElem? fun j => ?_
  rw [h, Nat.add_sub_cancel]
  by_cases h1 : j < c
  · rw [if_neg (by omega), List.getElem?_append_left (by rw [List.length_take]; omega), List.getElem?_take_of_lt h1]
  · rw [List.getElem?_append_right (by rw [List.length_take]; omega), List.length_take, Nat.min_eq_left (by omega)]
    by_cases h2 : j < c + k
    · rw [if_pos (by omega), List.getElem?_append_left (by simp; omega), List.getElem?_map, List.getElem?_range (by omega)]
      show _ = some _
      congr 2
      omega
    · rw [if_neg (by omega), List.getElem?_append_right (by simp; omega), List.getElem?_drop]
      congr 1
      simp
      omega

/-- The array holds the `len` bytes of `x` followed by the bytes that were there before. -/
def Holds (x buf : Bytes) (r : Bytes × Nat) : Prop := r.2 = x.length ∧ r.1 = x ++ buf.drop x.length

theorem Holds.read {x buf : Bytes} {r : Bytes × Nat} (h : Holds x buf r) : readBytes r.1 0 r.2 = .ok x := by
  obtain ⟨h1, h2⟩ := h
  rw [h1, h2, read_ok (by rw [List.length_append]; omega), List.drop_zero, List.take_left]

theorem Holds.length {x buf : Bytes} {r : Bytes × Nat} (h : Holds x buf r) (hx : x.length ≤ buf.length) : r.1.length = buf.length := by
  rw [h.2, List.length_append, List.length_drop]
  omega

namespace Shake
open Model.Shake

theorem leftEncode_ok (num : Nat) (buf : Bytes) (hb : 10 ≤ buf.length) : ∃ r, Locals.Shake.leftEncode num buf = .ok r ∧ Holds (leftEncode num) buf r := by
  have hn := Safety.Shake.countLoop_le 8 num 1
  unfold Locals.Shake.leftEncode leftEncode
  dsimp only
  generalize countLoop 8 num 1 = n at hn
  rw [wr_ok _ (by omega), ok_then, fill_desc (fun i => BitVec.ofNat 8 (num >>> (8 * i))) (fun i => n - i) 1 n (fun i hi => by omega) _ (by rw [List.length_set]; omega), ok_then]
  refine ⟨_, rfl, by simp, ?_⟩
  match buf, hb with
  | b :: buf, _ =>
    simp [Nat.add_comm 1 n]

theorem rightEncode_ok (num : Nat) (q : Bool) (buf : Bytes) (hb : 10 ≤ buf.length) :
    ∃ r, Locals.Shake.rightEncode num q buf = .ok r ∧ Holds (rightEncode num q) buf r := by
  have hn := Safety.Shake.countLoop_le 8 num (if q then if num ≠ 0 then 1 else 0 else 1)
  have h1 : (if q then if num ≠ 0 then 1 else 0 else 1) ≤ 1 := by split <;> (try split) <;> omega
  unfold Locals.Shake.rightEncode rightEncode
  dsimp only
  generalize countLoop 8 num _ = n at hn ⊢
  rw [wr_ok _ (by omega), ok_then, fill_desc (fun i => BitVec.ofNat 8 (num >>> (8 * i))) (fun i => n - (i + 1)) 0 n (fun i hi => by omega) _ (by rw [List.length_set]; omega), ok_then]
  refine ⟨_, rfl, by simp, ?_⟩
  rw [List.take_zero, List.nil_append, Nat.zero_add, List.append_assoc]
  dsimp only
  congr 1
  rw [List.length_append, List.length_map, List.length_range, List.length_singleton, List.drop_set, if_neg (by omega), Nat.sub_self,
    List.drop_eq_getElem_cons (show n < buf.length by omega)]
  rfl

theorem initPrefix_eq (buf : Bytes) (hb : 1024 ≤ buf.length) (R rate : Nat) (hr : rate ≤ 8192) (s : Blk St) :
    Locals.Shake.initPrefix buf R rate s = initPrefix R rate s := by
  unfold Locals.Shake.initPrefix initPrefix
  dsimp only
  have e1 := Safety.Shake.length_leftEncode (rate / 8)
  have e2 := Safety.Shake.length_leftEncode (s.h.N.length * 8 % szMod)
  have e3 := Safety.Shake.length_leftEncode (s.h.S.length * 8 % szMod)
  obtain ⟨r1, q1, h1⟩ := leftEncode_ok (rate / 8) buf (by omega)
  have l1 := h1.length (by omega)
  obtain ⟨r2, q2, h2⟩ := leftEncode_ok (s.h.N.length * 8 % szMod) r1.1 (by omega)
  have l2 := h2.length (by omega)
  obtain ⟨r3, q3, h3⟩ := leftEncode_ok (s.h.S.length * 8 % szMod) r2.1 (by omega)
  have l3 := h3.length (by omega)
  rw [q1, ok_then, h1.read, ok_then]
  refine congrArg _ (funext fun s1 => ?_)
  rw [q2, ok_then, h2.read, ok_then]
  refine congrArg _ (funext fun s2 => congrArg _ (funext fun s3 => ?_))
  rw [q3, ok_then, h3.read, ok_then]
  refine congrArg _ (funext fun s4 => congrArg _ (funext fun s5 => ?_))
  rw [h1.1, h2.1, h3.1]
  have hl : rate / 8 - (((leftEncode (rate / 8)).length + (leftEncode (s.h.N.length * 8 % szMod)).length + (leftEncode (s.h.S.length * 8 % szMod)).length + s.h.S.length + s.h.N.length) % szMod) % (rate / 8) ≤ 1024 := by omega
  generalize rate / 8 - _ = len at hl
  have z : ∀ b : Bytes, 1024 ≤ b.length → (memset b 0 0 len >>= fun b => readBytes b 0 len) = .ok (List.replicate len 0) := by
    intro b hb
    unfold memset
    rw [if_pos (by omega), ok_then, read_ok (by simp)]
    simp
  have a1 := z r3.1 (by omega)
  have a2 := z (List.replicate 1024 0) (by rw [List.length_replicate]; exact Nat.le_refl _)
  rw [← bind_assoc, a1, ← bind_assoc, a2]

end Shake

namespace Kmac
open Model.Kmac

theorem bytepad_eq (buf : Bytes) (hb : 32 ≤ buf.length) (B : Nat) (str : Bytes) : Locals.Kmac.bytepad buf B str = .ok (bytepad B str) := by
  unfold Locals.Kmac.bytepad bytepad
  dsimp only
  have e1 := Safety.Shake.length_leftEncode (if B = 128 then 168 else 136)
  obtain ⟨r1, q1, h1⟩ := Shake.leftEncode_ok (if B = 128 then 168 else 136) buf (by omega)
  have l1 := h1.length (by omega)
  obtain ⟨r2, q2, h2⟩ := Shake.leftEncode_ok (str.length * 8 % szMod) r1.1 (by omega)
  rw [q1, ok_then, h1.read, ok_then, q2, ok_then, h2.read, ok_then]
  rfl

theorem squeezeFirst_eq (buf : Bytes) (hb : 32 ≤ buf.length) (B : Nat) (xof : Bool) (hs : Nat) (s : St) :
    Locals.Kmac.squeezeFirst buf B xof hs s = squeezeFirst B xof hs s := by
  unfold Locals.Kmac.squeezeFirst squeezeFirst
  obtain ⟨r1, q1, h1⟩ := Shake.rightEncode_ok (if !xof then hs * 8 % szMod else 0) false buf (by omega)
  rw [q1, ok_then, h1.read, ok_then]

end Kmac

namespace K12
open Model.K12

theorem squeezeLoop_length (R r hs : Nat) (hr : 0 < r) : ∀ fuel (out : Bytes) (s : Blk Shake.St), out.length ≤ hs → hs ≤ out.length + fuel → ∀ x,
    Shake.squeezeLoop R r hs fuel out s = .ok x → x.1.length = hs
  | 0, out, s, h1, h2, x, e => by cases e; dsimp only; omega
  | fuel + 1, out, s, h1, h2, x, e => by
    unfold Shake.squeezeLoop at e
    by_cases h : out.length < hs
    · rw [if_pos h] at e
      dsimp only at e
      generalize (if out.length ≠ 0 then Sha3.permute R s.h.A else s.h.A) = A at e
      unfold readBytes at e
      split at e
      · rename_i hl
        rw [ok_then] at e
        refine squeezeLoop_length R r hs hr fuel _ _ ?_ ?_ x e
        · rw [List.length_append, List.length_take, List.drop_zero]; omega
        · rw [List.length_append, List.length_take, List.drop_zero]; omega
      · cases e
    · rw [if_neg h] at e
      cases e
      dsimp only
      omega

theorem squeeze_length (R rate hs : Nat) (hr : 8 ≤ rate) (s : Blk Shake.St) (x : Bytes × Blk Shake.St) (e : Shake.squeeze R rate hs s = .ok x) : x.1.length = hs := by
  unfold Shake.squeeze at e
  cases h : Shake.squeezeFirst R rate hs s with
  | error u => rw [h] at e; cases e
  | ok y =>
    rw [h, ok_then] at e
    have hy : y.1.length ≤ hs := by
      unfold Shake.squeezeFirst at h
      dsimp only at h
      split at h
      · cases h2 : Sha3.padLast R rate (Shake.domain s.h) s.m s.pos s.h.A with
        | error u => rw [h2] at h; cases h
        | ok z => rw [h2] at h; cases h; simp
      · split at h
        · unfold readBytes at h
          split at h
          · cases h
            rw [List.length_take]
            omega
          · cases h
        · split at h <;> · cases h; simp
    exact squeezeLoop_length R _ hs (by omega) hs y.1 y.2 hy (by omega) x e

/-- Copying into a large enough array and reading back. -/
theorem through (buf x : Bytes) (n : Nat) (hx : x.length = n) (hb : n ≤ buf.length) :
    ∃ b, memcpyTo buf 0 x = .ok b ∧ b.length = buf.length ∧ readBytes b 0 n = .ok x := by
  unfold memcpyTo
  refine ⟨_, if_pos (by omega), by simp; omega, ?_⟩
  rw [read_ok (by simp; omega)]
  subst hx
  simp

theorem next_eq (buf : Bytes) (B R rate : Nat) (hB : B / 4 ≤ buf.length) (hr : 8 ≤ rate) (b : Bytes) (h : St) :
    Locals.K12.next buf B R rate b h = next B R rate b h := by
  unfold Locals.K12.next next
  refine congrArg _ (funext fun child => ?_)
  cases e : Shake.squeeze R rate (B / 4) child with
  | error u => rfl
  | ok r =>
    obtain ⟨b, e1, -, e2⟩ := through buf r.1 (B / 4) (squeeze_length R rate _ hr _ _ e) hB
    rw [ok_then, ok_then, e1, ok_then, e2, ok_then]

theorem finishTree_eq (buf : Bytes) (B R rate : Nat) (hB : B / 4 ≤ buf.length) (h10 : 10 ≤ buf.length) (hr : 8 ≤ rate) (s : Blk St) :
    Locals.K12.finishTree buf B R rate s = finishTree B R rate s := by
  unfold Locals.K12.finishTree finishTree
  refine congrArg _ (funext fun b => congrArg _ (funext fun child => ?_))
  cases e : Shake.squeeze R rate (B / 4) child with
  | error u => rfl
  | ok r =>
    obtain ⟨b, e1, lb, e2⟩ := through buf r.1 (B / 4) (squeeze_length R rate _ hr _ _ e) hB
    rw [ok_then, ok_then, e1, ok_then, e2, ok_then]
    refine congrArg _ (funext fun main => ?_)
    obtain ⟨r1, q1, h1⟩ := Shake.rightEncode_ok s.h.chunk true b (by omega)
    dsimp only
    rw [q1, ok_then, h1.read, ok_then]

theorem squeezeFirst_eq (buf : Bytes) (B R : Nat) (hB : B = 128 ∨ B = 256) (hb : buf.length = B / 4) (s : Blk St) :
    Locals.K12.squeezeFirst buf B R s = squeezeFirst B R s := by
  unfold Locals.K12.squeezeFirst squeezeFirst
  obtain ⟨r1, q1, h1⟩ := Shake.rightEncode_ok s.h.S.length true buf (by omega)
  have l1 := h1.length (by have := Safety.Shake.length_rightEncode s.h.S.length true; omega)
  rw [q1, ok_then]
  dsimp only
  have e : ∀ s, Locals.K12.finish r1.1 B R (Shake.rateOf B) s = finish B R (Shake.rateOf B) s := by
    intro s
    unfold Locals.K12.finish finish
    rw [finishTree_eq r1.1 B R _ (by omega) (by omega) (by unfold Shake.rateOf; split <;> omega)]
  simp only [h1.read, ok_then, e]

end K12

theorem Blake2.absorbKey_eq {w : Nat} (hw : w < 2 ^ 60) (key : Bytes) (hk : key.length = 2 * w) (T : Blake2.Word w) (s : Blk (Blake2.St w)) :
    Locals.Blake2.absorbKey key T s = Blake2.absorbKey T s := by
  unfold Locals.Blake2.absorbKey Blake2.absorbKey
  by_cases h0 : s.h.k = []
  · rw [if_pos h0, if_pos h0]
  · rw [if_neg h0, if_neg h0]
    unfold memcpyTo Blake2.keyBlock
    by_cases h : s.h.k.length ≤ 2 * w
    · rw [if_pos (by omega), if_pos h, ok_then]
      by_cases h2 : s.h.k.length = 2 * w
      · rw [if_neg (by omega)]
        show Blake2.update T _ s = Blake2.update T _ s
        congr 1
        simp [h2, hk]
      · rw [if_pos h2]
        unfold memset
        rw [if_pos (by
          rw [szSub_eq _ _ h (by unfold szMod; omega)]
          simp
          omega)]
        show Blake2.update T _ s = Blake2.update T _ s
        congr 1
        rw [szSub_eq _ _ h (by unfold szMod; omega)]
        simp [hk, h]
    · rw [if_neg (by omega), if_neg h]
      rfl

theorem Jh.init_eq (msg : Bytes) (hm : msg.length = 64) (s : Blk Jh.St) : Locals.Jh.init msg s = Jh.init s := by
  unfold Locals.Jh.init Jh.init memset
  rw [if_pos (by omega), ok_then, List.take_zero, List.nil_append, List.drop_of_length_le (by omega), List.append_nil]

theorem Sha2.initGen_eq (buf : Bytes) (hb : buf.length = 64) (s : Blk (Sha2.St 64)) : Locals.Sha2.initGen buf s = Sha2.initGen s := by
  unfold Locals.Sha2.initGen Sha2.initGen
  dsimp only
  refine congrArg _ (funext fun s1 => congrArg _ (funext fun s2 => congrArg _ (funext fun out => ?_)))
  unfold memcpyTo
  rw [hb, List.length_replicate]
  split <;> rfl

theorem Lsh.init_eq {w : Nat} (msg : Bytes) (hm : msg.length = 4 * w) (rot : Lsh.Rot w) (T : Lsh.Word w) (s : Blk (Lsh.St w)) :
    Locals.Lsh.init msg rot T s = Lsh.init rot T s := by
  unfold Locals.Lsh.init Lsh.init memset
  rw [if_pos (by omega), ok_then, List.take_zero, List.nil_append, List.drop_of_length_le (by omega), List.append_nil]

theorem Lsh.transform_sized {w : Nat} {T : Lsh.Word w} (ok : Lsh.Good T) (rot : Lsh.Rot w) (data : Bytes) (n : Nat) (s s' : Blk (Lsh.St w)) (hs : Locals.Lsh.Sized T s.h)
    (e : Lsh.transform rot T data n s = .ok s') : Locals.Lsh.Sized T s'.h := by
  unfold Lsh.transform at e
  have P : Indep.Post (Locals.Lsh.Sized T) (forBlocks (Lsh.blockBytes w) data n (fun _ b h => Lsh.compress rot T b h) s.h) := by
    refine Indep.Post.foldlM _ (fun i _ h hh => ?_) _ hs
    unfold Indep.Post readBytes
    intro h' e
    split at e
    · rename_i hl
      rw [ok_then] at e
      refine (Lsh.block_eq ok rot ((data.drop (i * Lsh.blockBytes w)).take (Lsh.blockBytes w)) _ ?_ h hh).2 h' e
      rw [read_ok (by rw [List.length_take, List.length_drop]; omega), List.drop_zero, List.take_take, Nat.min_self]
    · cases e
  cases h : forBlocks (Lsh.blockBytes w) data n (fun _ b h => Lsh.compress rot T b h) s.h with
  | error u => rw [h] at e; cases e
  | ok h' =>
    have := P h' h
    rw [h] at e
    cases e
    exact this

/-- Object representations of arrays. -/
structure Lsh.StoresOk {w : Nat} (T : Lsh.Word w) : Prop where
  append : ∀ l l', T.stores (l ++ l') = T.stores l ++ T.stores l'
  length : ∀ l, (T.stores l).length = w / 8 * l.length

theorem Lsh.stores32_ok : Lsh.StoresOk Lsh.u32 := ⟨fun _ _ => List.flatMap_append .., fun l => Safety.length_stores32 l⟩

theorem Lsh.stores64_ok : Lsh.StoresOk Lsh.u64 := ⟨fun _ _ => List.flatMap_append .., fun l => Safety.length_stores64 l⟩

theorem Lsh.transform_hs {w : Nat} {T : Lsh.Word w} (rot : Lsh.Rot w) (data : Bytes) (n : Nat) (s s' : Blk (Lsh.St w))
    (e : Lsh.transform rot T data n s = .ok s') : s'.h.hs = s.h.hs := by
  have step : ∀ i ra rb (h : Lsh.St w), Indep.Post (fun h' => h'.hs = h.hs) (Lsh.step rot T i ra rb h) := by
    intro i ra rb h
    unfold Lsh.step
    exact Indep.Post.bind Indep.Post.any fun xy _ => Indep.Post.pure rfl
  have comp : ∀ b (h : Lsh.St w), Indep.Post (fun h' => h'.hs = h.hs) (Lsh.compress rot T b h) := by
    intro b h
    unfold Lsh.compress
    refine Indep.Post.bind (Q := fun h' => h'.hs = h.hs) (Indep.Post.foldlM _ (fun k _ h1 e1 => ?_) _ rfl) fun h1 e1 => Indep.Post.pure e1
    refine Indep.Post.bind (step _ _ _ h1) fun h2 e2 => ?_
    exact Indep.Post.mono (step _ _ _ h2) fun h3 e3 => e3.trans (e2.trans e1)
  have P : Indep.Post (fun s' => s'.h.hs = s.h.hs) (Lsh.transform rot T data n s) := by
    unfold Lsh.transform
    refine Indep.Post.bind (Q := fun h' => h'.hs = s.h.hs) (Indep.Post.foldlM _ (fun k _ h1 e1 => ?_) _ rfl) fun h1 e1 => Indep.Post.pure e1
    exact Indep.Post.bind Indep.Post.any fun b _ => Indep.Post.mono (comp b h1) fun h2 e2 => e2.trans e1
  exact P s' e

theorem Lsh.final_eq {w : Nat} {T : Lsh.Word w} (ok : Lsh.Good T) (st : Lsh.StoresOk T) (h : List (BitVec w)) (hh : 8 ≤ h.length) (rot : Lsh.Rot w) (s : Blk (Lsh.St w))
    (hs : Locals.Lsh.Sized T s.h) (hsz : s.h.hs / 8 ≤ w / 8 * 8) : Locals.Lsh.final h rot T s = Lsh.final rot T s := by
  unfold Locals.Lsh.final Lsh.final
  refine congrArg _ (funext fun m => congrArg _ (funext fun m' => ?_))
  generalize hs0 : ({ s with m := m', pos := s.pos + 1, total := s.total + BitVec.ofNat 64 ((s.pos + 1) * 8) } : Blk (Lsh.St w)) = s0
  cases e : Lsh.transform rot T m' 1 s0 with
  | error u => rfl
  | ok s' =>
    have c := (Lsh.transform_sized ok rot _ _ _ _ (by rw [← hs0]; exact hs) e).1
    have c2 : s'.h.hs = s.h.hs := by rw [Lsh.transform_hs rot _ _ _ _ e, ← hs0]
    rw [ok_then, ok_then]
    obtain ⟨b, eb, lb, gb, -⟩ := fill 0 (fun i => s'.h.cv.getD i 0 ^^^ s'.h.cv.getD (i + 8) 0) h.length 0 8 (by omega) hh (fun i h => do
      let a ← rd s'.h.cv i
      let b ← rd s'.h.cv (i + 8)
      wr h i (a ^^^ b)) h rfl (fun j hj => by omega) (fun t a _ ht ha _ => by
      rw [rd_ok 0 (by omega), ok_then, rd_ok 0 (by omega), ok_then, wr_ok _ (by omega)])
    rw [eb, ok_then]
    have hb : b = (List.range 8).map (fun i => s'.h.cv.getD i 0 ^^^ s'.h.cv.getD (i + 8) 0) ++ b.drop 8 := by
      rw [← List.take_append_drop 8 b, List.drop_left' (by rw [List.length_take]; omega)]
      congr 1
      rw [← map_range_getD (b.take 8) 0 8 (by rw [List.length_take]; omega)]
      refine List.map_congr_left fun j hj => ?_
      rw [List.mem_range] at hj
      rw [← gb j hj, List.getD_eq_getElem?_getD, List.getElem?_take_of_lt hj, List.getD_eq_getElem?_getD]
    rw [hb, st.append]
    generalize hX : (List.range 8).map (fun i => s'.h.cv.getD i 0 ^^^ s'.h.cv.getD (i + 8) 0) = X
    have hl : (T.stores X).length = w / 8 * 8 := by rw [st.length, ← hX, List.length_map, List.length_range]
    rw [read_ok (by rw [List.length_append]; omega), read_ok (by omega), List.drop_zero, List.drop_zero, List.take_append_of_le_length (by omega)]

end Digestpp.Proofs.Locals
