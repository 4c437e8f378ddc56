import Verif.Model.Sha1
import Verif.Spec.Sha1
import Verif.Proofs.Words
import Verif.Proofs.MdFinal
import Verif.Proofs.Sched
import Verif.Proofs.Api

/-! The SHA-1 provider computes SHA-1. -/

namespace Digestpp.Proofs
open Model Spec

namespace Sha1

theorem schedule_eq (Mw : List (BitVec 32)) (h : Mw.length = 16) :
    Model.Sha1.schedule Mw = (List.range 80).map (Spec.Sha1.sched Mw) := by
  refine expand_spec (fun W t => rotl (W.getD (t - 3) 0 ^^^ W.getD (t - 8) 0 ^^^ W.getD (t - 14) 0 ^^^ W.getD (t - 16) 0) 1)
    (Spec.Sha1.sched Mw) 16 64 Mw ?_ ?_
  · rw [← map_range_getD Mw 0 16 h]
    apply List.map_congr_left
    intro i hi
    rw [List.mem_range] at hi
    rw [map_range_getD Mw 0 16 h, Spec.Sha1.sched, if_pos hi]
  · intro t h1 h2
    rw [getD_map_range _ _ _ _ (by omega), getD_map_range _ _ _ _ (by omega), getD_map_range _ _ _ _ (by omega),
      getD_map_range _ _ _ _ (by omega), rotl_eq]
    conv => rhs; rw [Spec.Sha1.sched, if_neg (by omega)]

/-- Before round `t` the model's variables are the specification's, and `f` and `K` are those of round `t`. -/
def Sim (t : Nat) (v : Model.Sha1.Vars) (w : Spec.Sha1.H) : Prop :=
  w = (v.a, v.b, v.c, v.d, v.e) ∧ (t < 80 → v.f = Spec.Sha1.f t ∧ v.K = Spec.Sha1.K t)

theorem switch_sim (t : Nat) (v : Model.Sha1.Vars) (hf : v.f = Spec.Sha1.f t) (hK : v.K = Spec.Sha1.K t) :
    (Model.Sha1.switch t v).f = Spec.Sha1.f (t + 1) ∧ (Model.Sha1.switch t v).K = Spec.Sha1.K (t + 1) := by
  unfold Model.Sha1.switch
  by_cases h1 : t = 19
  · subst h1; exact ⟨rfl, rfl⟩
  by_cases h2 : t = 39
  · subst h2; exact ⟨rfl, rfl⟩
  by_cases h3 : t = 59
  · subst h3; exact ⟨rfl, rfl⟩
  rw [if_neg h1, if_neg h2, if_neg h3, hf, hK]
  have e1 : (t < 20) = (t + 1 < 20) := by apply propext; omega
  have e2 : (t < 40) = (t + 1 < 40) := by apply propext; omega
  have e3 : (t < 60) = (t + 1 < 60) := by apply propext; omega
  constructor
  · funext x y z; unfold Spec.Sha1.f; simp only [e1, e2, e3]
  · unfold Spec.Sha1.K; simp only [e1, e2, e3]

theorem switch_vars (t : Nat) (v : Model.Sha1.Vars) : (Model.Sha1.switch t v).a = v.a ∧ (Model.Sha1.switch t v).b = v.b ∧
    (Model.Sha1.switch t v).c = v.c ∧ (Model.Sha1.switch t v).d = v.d ∧ (Model.Sha1.switch t v).e = v.e := by
  unfold Model.Sha1.switch
  split
  · exact ⟨rfl, rfl, rfl, rfl, rfl⟩
  split
  · exact ⟨rfl, rfl, rfl, rfl, rfl⟩
  split <;> exact ⟨rfl, rfl, rfl, rfl, rfl⟩

/-- The chaining value as an array. -/
def arr (h : Spec.Sha1.H) : List (BitVec 32) := [h.1, h.2.1, h.2.2.1, h.2.2.2.1, h.2.2.2.2]
def unarr (l : List (BitVec 32)) : Spec.Sha1.H := (l.getD 0 0, l.getD 1 0, l.getD 2 0, l.getD 3 0, l.getD 4 0)

/-- The specification's compression function on arrays. -/
def step (b : Bytes) (h : List (BitVec 32)) : List (BitVec 32) := arr (Spec.Sha1.compress (unarr h) b)

theorem compress_eq (b : Bytes) (h : List (BitVec 32)) (hb : b.length = 64) :
    Model.Sha1.compress b h = .ok (step b h) := by
  unfold Model.Sha1.compress
  rw [loads32_be 16 b hb]
  dsimp only
  have hlen : (beWords 32 b).length = 16 := by simp [beWords, hb]
  rw [schedule_eq _ hlen]
  have := foldl_range_sim (Model.Sha1.round ((List.range 80).map (Spec.Sha1.sched (beWords 32 b))))
    (Spec.Sha1.round (beWords 32 b)) Sim 80
    ⟨h.getD 0 0, h.getD 1 0, h.getD 2 0, h.getD 3 0, h.getD 4 0, Model.Sha1.Ch, sha1_K.getD 0 0⟩ (unarr h)
    ⟨rfl, fun _ => ⟨rfl, rfl⟩⟩ (by
      intro t v w ht hs
      obtain ⟨hw, hfk⟩ := hs
      obtain ⟨hf, hK⟩ := hfk ht
      subst hw
      unfold Model.Sha1.round
      dsimp only
      refine ⟨?_, fun _ => ?_⟩
      · rw [(switch_vars t _).1, (switch_vars t _).2.1, (switch_vars t _).2.2.1, (switch_vars t _).2.2.2.1,
          (switch_vars t _).2.2.2.2]
        dsimp only
        rw [rotl_eq, rotl_eq, getD_map_range _ _ _ _ ht, hf, hK]
        rfl
      · exact switch_sim _ _ hf hK)
  obtain ⟨e, -⟩ := this
  unfold step Spec.Sha1.compress
  rw [e]
  rfl

theorem isCompress : IsCompress 64 (fun _ => True) step Model.Sha1.transform :=
  isCompress_of (compress := Model.Sha1.compress) (fun b h hb _ => ⟨compress_eq b h hb, trivial⟩) (fun _ _ _ => rfl)

/-- `s` has absorbed `msg`. -/
def R (_ : Unit) (msg : Bytes) (s : Blk (List (BitVec 32))) : Prop :=
  Buffered 64 0 64 (fun _ b h => step b h) [0x67452301, 0xefcdab89, 0x98badcfe, 0x10325476, 0xc3d2e1f0] msg s

theorem init_ok (s : Blk (List (BitVec 32))) (hm : s.m.length = 64) :
    ∃ s', Model.Sha1.init s = .ok s' ∧ R () [] s' :=
  ⟨_, rfl, by unfold R; exact Buffered.start _ _ hm rfl rfl rfl⟩

theorem final_ok (msg : Bytes) (s : Blk (List (BitVec 32))) (hR : R () msg s) :
    Model.Sha1.final s = .ok (Spec.Sha1.hash msg) := by
  obtain ⟨s', e, h, -⟩ := mdFinal_spec (lf := 8) (limit := 56) (fill := 56) (enc := fun total => bytes64 (byteswap64 total))
    isCompress (by omega) (by omega) rfl (by omega) (by omega) (by omega) (fun _ => rfl) msg s hR trivial
  unfold Model.Sha1.final
  rw [e, ok_bind, h, stores32_be]
  have hpad : List.replicate (8 - 8) (0 : Byte) ++ bytes64 (byteswap64 (BitVec.ofNat 64 (8 * msg.length)))
      = beBytes 8 (8 * msg.length) := by
    rw [bytes64_byteswap_ofNat, Nat.sub_self, List.replicate_zero, List.nil_append]
  rw [hpad]
  unfold Spec.Sha1.hash
  rw [foldl_chunks]
  have := foldBlocks_conj arr (step' := fun _ b h => step b h) (step := fun _ b s => Spec.Sha1.compress s b)
    (fun _ _ _ => rfl) 64 (mdPad 64 (beBytes 8 (8 * msg.length)) msg)
    ((mdPad 64 (beBytes 8 (8 * msg.length)) msg).length / 64) (0x67452301, 0xefcdab89, 0x98badcfe, 0x10325476, 0xc3d2e1f0)
  rw [show ([0x67452301, 0xefcdab89, 0x98badcfe, 0x10325476, 0xc3d2e1f0] : List (BitVec 32))
    = arr (0x67452301, 0xefcdab89, 0x98badcfe, 0x10325476, 0xc3d2e1f0) from rfl, this]
  rfl

theorem refines : HashRefines Model.Sha1.provider Spec.Sha1.sha1 (Cover.all Empty) R where
  init := fun _ _ s h => init_ok s h.mlen
  update := fun _ msg s data h hd =>
    absorbBytes_spec (by omega) (by omega) (by omega) (by omega) isCompress.isTransform (fun _ _ _ _ _ => trivial)
      trivial msg data s h hd
  final := fun _ msg s h _ => final_ok msg s h
  clear := fun _ _ _ s h =>
    have ⟨s', e, r⟩ := init_ok { s with h := List.replicate 5 0, m := zeroBytes s.m } (by simp [zeroBytes, h.mlen])
    ⟨_, s', rfl, e, r⟩
  size := fun _ _ _ _ => by show 160 / 8 = 20; rfl
  size_pos := by decide
  digest_length := fun _ msg _ _ _ => by
    show (Spec.Sha1.hash msg).length = 20
    simp [Spec.Sha1.hash, ofBeWords, beBytes, leBytes]
  set := nofun

end Sha1
end Digestpp.Proofs
