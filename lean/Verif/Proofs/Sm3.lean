import Verif.Model.Sm3
import Verif.Spec.Sm3
import Verif.Proofs.Words
import Verif.Proofs.MdFinal
import Verif.Proofs.Sched
import Verif.Proofs.Api

/-! The SM3 provider computes SM3, on machines that reduce shift counts; by the language rules it is undefined. -/

namespace Digestpp.Proofs
open Model Spec

namespace Sm3

theorem rotlMasked_eq (x : BitVec 32) (n : Nat) (h : n < 2 ^ 31) : rotlMasked x n = .ok (x.rotateLeft (n % 32)) := by
  unfold rotlMasked BitVec.rotateLeft BitVec.rotateLeftAux
  rw [Nat.mod_mod]
  by_cases h0 : n % 32 = 0
  · have e : (2 ^ 32 + 32 - n) % 2 ^ 32 % 32 = 0 := by omega
    rw [e, h0]
    congr 1
    apply BitVec.eq_of_getLsbD_eq
    intro i hi
    simp
  · have e : (2 ^ 32 + 32 - n) % 2 ^ 32 % 32 = 32 - n % 32 := by omega
    rw [e]

theorem ff1_eq (x y z : BitVec 32) : Model.Sm3.ff1 x y z = (x &&& y) ||| (x &&& z) ||| (y &&& z) := by
  apply BitVec.eq_of_getLsbD_eq
  intro i hi
  simp only [Model.Sm3.ff1, BitVec.getLsbD_xor, BitVec.getLsbD_and, BitVec.getLsbD_or]
  cases x.getLsbD i <;> cases y.getLsbD i <;> cases z.getLsbD i <;> rfl

theorem gg1_eq (x y z : BitVec 32) : Model.Sm3.gg1 x y z = (x &&& y) ||| (~~~x &&& z) := by
  apply BitVec.eq_of_getLsbD_eq
  intro i hi
  simp only [Model.Sm3.gg1, BitVec.getLsbD_xor, BitVec.getLsbD_and, BitVec.getLsbD_or, BitVec.getLsbD_not, hi, decide_true]
  cases x.getLsbD i <;> cases y.getLsbD i <;> cases z.getLsbD i <;> rfl

theorem schedule_eq (Mw : List (BitVec 32)) (h : Mw.length = 16) :
    Model.Sm3.schedule Mw = (List.range 68).map (Spec.Sm3.sched Mw) := by
  refine expand_spec (fun W t => Model.Sm3.p1 (W.getD (t - 16) 0 ^^^ W.getD (t - 9) 0 ^^^ rotl (W.getD (t - 3) 0) 15) ^^^
      rotl (W.getD (t - 13) 0) 7 ^^^ W.getD (t - 6) 0) (Spec.Sm3.sched Mw) 16 52 Mw ?_ ?_
  · rw [← map_range_getD Mw 0 16 h]
    apply List.map_congr_left
    intro i hi
    rw [List.mem_range] at hi
    rw [map_range_getD Mw 0 16 h, Spec.Sm3.sched, if_pos hi]
  · intro t h1 h2
    rw [getD_map_range _ _ _ _ (by omega), getD_map_range _ _ _ _ (by omega), getD_map_range _ _ _ _ (by omega),
      getD_map_range _ _ _ _ (by omega), getD_map_range _ _ _ _ (by omega)]
    unfold Model.Sm3.p1
    simp only [rotl_eq]
    conv => rhs; rw [Spec.Sm3.sched, if_neg (by omega)]
    rfl

/-- The model's variables. -/
def toVars (v : Spec.Sm3.H8) : Model.Sm3.Vars := ⟨v.a, v.b, v.c, v.d, v.e, v.f, v.g, v.h⟩

theorem round_eq (Mw : List (BitVec 32)) (k : BitVec 32) (ff gg : BitVec 32 → BitVec 32 → BitVec 32 → BitVec 32)
    (t : Nat) (ht : t < 64) (hk : k = Spec.Sm3.T t) (hf : ff = Spec.Sm3.FF t) (hg : gg = Spec.Sm3.GG t) (v : Spec.Sm3.H8) :
    Model.Sm3.round rotlMasked k ff gg ((List.range 68).map (Spec.Sm3.sched Mw)) ((List.range 64).map (Spec.Sm3.sched' Mw))
      (toVars v) t = .ok (toVars (Spec.Sm3.round Mw v t)) := by
  unfold Model.Sm3.round
  rw [rotlMasked_eq _ _ (by omega), ok_bind, getD_map_range _ _ _ _ ht, getD_map_range _ _ _ _ (by omega), hk, hf, hg]
  unfold Model.Sm3.p0
  simp only [rotl_eq]
  rfl

theorem rounds_eq (Mw : List (BitVec 32)) (k : BitVec 32) (ff gg : BitVec 32 → BitVec 32 → BitVec 32 → BitVec 32)
    (l : List Nat) (hl : ∀ t ∈ l, t < 64 ∧ k = Spec.Sm3.T t ∧ ff = Spec.Sm3.FF t ∧ gg = Spec.Sm3.GG t) (v : Spec.Sm3.H8) :
    l.foldlM (Model.Sm3.round rotlMasked k ff gg ((List.range 68).map (Spec.Sm3.sched Mw))
      ((List.range 64).map (Spec.Sm3.sched' Mw))) (toVars v) = .ok (toVars (l.foldl (Spec.Sm3.round Mw) v)) := by
  induction l generalizing v with
  | nil => rfl
  | cons t l ih =>
    obtain ⟨h1, h2, h3, h4⟩ := hl t (by simp)
    rw [List.foldlM_cons, round_eq Mw k ff gg t h1 h2 h3 h4, ok_bind, List.foldl_cons]
    exact ih (fun t ht => hl t (by simp [ht])) _

/-- The chaining value as an array. -/
def arr (h : Spec.Sm3.H8) : List (BitVec 32) := [h.a, h.b, h.c, h.d, h.e, h.f, h.g, h.h]
def unarr (l : List (BitVec 32)) : Spec.Sm3.H8 :=
  ⟨l.getD 0 0, l.getD 1 0, l.getD 2 0, l.getD 3 0, l.getD 4 0, l.getD 5 0, l.getD 6 0, l.getD 7 0⟩

/-- The specification's compression function on arrays. -/
def step (b : Bytes) (h : List (BitVec 32)) : List (BitVec 32) := arr (Spec.Sm3.compress (unarr h) b)

theorem compress_eq (b : Bytes) (h : List (BitVec 32)) (hb : b.length = 64) :
    Model.Sm3.compress rotlMasked b h = .ok (step b h) := by
  unfold Model.Sm3.compress
  rw [loads32_be 16 b hb]
  dsimp only
  have hlen : (beWords 32 b).length = 16 := by simp [beWords, hb]
  rw [schedule_eq _ hlen]
  have hW2 : ((List.range 64).map fun t => ((List.range 68).map (Spec.Sm3.sched (beWords 32 b))).getD t 0 ^^^
      ((List.range 68).map (Spec.Sm3.sched (beWords 32 b))).getD (t + 4) 0)
      = (List.range 64).map (Spec.Sm3.sched' (beWords 32 b)) := by
    apply List.map_congr_left
    intro t ht
    rw [List.mem_range] at ht
    rw [getD_map_range _ _ _ _ (by omega), getD_map_range _ _ _ _ (by omega)]
    rfl
  rw [hW2]
  rw [show (⟨h.getD 0 0, h.getD 1 0, h.getD 2 0, h.getD 3 0, h.getD 4 0, h.getD 5 0, h.getD 6 0, h.getD 7 0⟩ : Model.Sm3.Vars)
    = toVars (unarr h) from rfl]
  rw [rounds_eq _ _ _ _ (List.range 16), ok_bind]
  · rw [rounds_eq _ _ _ _ (List.range' 16 48), ok_bind, ← List.foldl_append,
      show List.range 16 ++ List.range' 16 48 = List.range 64 by decide]
    · unfold step Spec.Sm3.compress
      generalize (List.range 64).foldl _ _ = r
      simp only [arr, toVars, unarr, BitVec.xor_comm]
      rfl
    · intro t ht
      rw [List.mem_range'_1] at ht
      refine ⟨by omega, ?_, ?_, ?_⟩
      · unfold Spec.Sm3.T; rw [if_neg (by omega)]
      · funext x y z; unfold Spec.Sm3.FF; rw [if_neg (by omega), ff1_eq]
      · funext x y z; unfold Spec.Sm3.GG; rw [if_neg (by omega), gg1_eq]
  · intro t ht
    rw [List.mem_range] at ht
    refine ⟨by omega, ?_, ?_, ?_⟩
    · unfold Spec.Sm3.T; rw [if_pos ht]
    · funext x y z; unfold Spec.Sm3.FF; rw [if_pos ht]; rfl
    · funext x y z; unfold Spec.Sm3.GG; rw [if_pos ht]; rfl

theorem isCompress : IsCompress 64 (fun _ => True) step (Model.Sm3.transform rotlMasked) :=
  isCompress_of (compress := Model.Sm3.compress rotlMasked) (fun b h hb _ => ⟨compress_eq b h hb, trivial⟩) (fun _ _ _ => rfl)

/-- Initial value. -/
def iv : Spec.Sm3.H8 := ⟨0x7380166f, 0x4914b2b9, 0x172442d7, 0xda8a0600, 0xa96f30bc, 0x163138aa, 0xe38dee4d, 0xb0fb0e4e⟩

/-- `s` has absorbed `msg`. -/
def R (_ : Unit) (msg : Bytes) (s : Blk (List (BitVec 32))) : Prop :=
  Buffered 64 0 64 (fun _ b h => step b h) (arr iv) msg s

theorem init_ok (s : Blk (List (BitVec 32))) (hm : s.m.length = 64) :
    ∃ s', Model.Sm3.init s = .ok s' ∧ R () [] s' :=
  ⟨_, rfl, by unfold R; exact Buffered.start _ _ hm rfl rfl rfl⟩

theorem final_ok (msg : Bytes) (s : Blk (List (BitVec 32))) (hR : R () msg s) :
    Model.Sm3.final rotlMasked s = .ok (Spec.Sm3.hash msg) := by
  obtain ⟨s', e, h, -⟩ := mdFinal_spec (lf := 8) (limit := 56) (fill := 56) (enc := fun total => bytes64 (byteswap64 total))
    isCompress (by omega) (by omega) rfl (by omega) (by omega) (by omega) (fun _ => rfl) msg s hR trivial
  unfold Model.Sm3.final
  rw [e, ok_bind, h, stores32_be]
  have hpad : List.replicate (8 - 8) (0 : Byte) ++ bytes64 (byteswap64 (BitVec.ofNat 64 (8 * msg.length)))
      = beBytes 8 (8 * msg.length) := by
    rw [bytes64_byteswap_ofNat, Nat.sub_self, List.replicate_zero, List.nil_append]
  rw [hpad]
  unfold Spec.Sm3.hash
  rw [foldl_chunks]
  have := foldBlocks_conj arr (step' := fun _ b h => step b h) (step := fun _ b s => Spec.Sm3.compress s b)
    (fun _ _ _ => rfl) 64 (mdPad 64 (beBytes 8 (8 * msg.length)) msg)
    ((mdPad 64 (beBytes 8 (8 * msg.length)) msg).length / 64) iv
  rw [this]
  rfl

theorem refines : HashRefines (Model.Sm3.provider rotlMasked) Spec.Sm3.sm3 (Cover.all Empty) R where
  init := fun _ _ s h => init_ok s h.mlen
  update := fun _ msg s data h hd =>
    absorbBytes_spec (by omega) (by omega) (by omega) (by omega) isCompress.isTransform (fun _ _ _ _ _ => trivial)
      trivial msg data s h hd
  final := fun _ msg s h _ => final_ok msg s h
  clear := fun _ _ _ s h =>
    have ⟨s', e, r⟩ := init_ok { s with h := List.replicate 8 0, m := zeroBytes s.m } (by simp [zeroBytes, h.mlen])
    ⟨_, s', rfl, e, r⟩
  size := fun _ _ _ _ => by show 256 / 8 = 32; rfl
  size_pos := by decide
  digest_length := fun _ msg _ _ _ => by
    show (Spec.Sm3.hash msg).length = 32
    simp [Spec.Sm3.hash, ofBeWords, beBytes, leBytes]
  set := nofun

/-- By the rules of the language, compressing a block is undefined: the first round shifts a 32-bit word by 32. -/
theorem compress_ub (b : Bytes) (h : List (BitVec 32)) : Model.Sm3.compress rotlChecked b h = .error .shift := rfl

end Sm3
end Digestpp.Proofs
