import Verif.Proofs.Leak.Basic
import Verif.Model.Leak.Skein

/-! Traces of the functions of `Model/Leak/Skein`: without the trace they are those of `Model/Locals`; the trace is the same for all data. -/

namespace Digestpp.Proofs.Leak.Skein
open Model
open Model.Skein
open Locals.Skein (Stack Env)
theorem pair_erase (F : Fns) (r : Nat) (j : Nat) (G : List (BitVec 64)) : L.erase (Model.Leak.Skein.pair F r j G) = Model.Locals.Skein.pair F r j G := by
  unfold Model.Leak.Skein.pair Model.Locals.Skein.pair
  erase_simp []

theorem pair_agree (F : Fns) (r : Nat) (j : Nat) (G G' : List (BitVec 64)) : Agree Any (Model.Leak.Skein.pair F r j G) (Model.Leak.Skein.pair F r j G') := by
  unfold Model.Leak.Skein.pair
  agree []

theorem GTv4_erase (F : Fns) (r : Nat) (G : List (BitVec 64)) : L.erase (Model.Leak.Skein.GTv4 F r G) = Model.Locals.Skein.GTv4 F r G := by
  unfold Model.Leak.Skein.GTv4 Model.Locals.Skein.GTv4
  erase_simp [Skein.pair_erase]

theorem GTv4_agree (F : Fns) (r : Nat) (G G' : List (BitVec 64)) : Agree Any (Model.Leak.Skein.GTv4 F r G) (Model.Leak.Skein.GTv4 F r G') := by
  unfold Model.Leak.Skein.GTv4
  agree [(Skein.pair_agree _ _ _ _ _)]

theorem KSt_erase (F : Fns) (r : Nat) (keys : List (BitVec 64)) (tweaks : List (BitVec 64)) (i : Nat) (G : List (BitVec 64)) : L.erase (Model.Leak.Skein.KSt F r keys tweaks i G) = Model.Locals.Skein.KSt F r keys tweaks i G := by
  unfold Model.Leak.Skein.KSt Model.Locals.Skein.KSt
  erase_simp []

theorem KSt_agree (F : Fns) (r : Nat) (keys keys' : List (BitVec 64)) (tweaks tweaks' : List (BitVec 64)) (i : Nat) (G G' : List (BitVec 64)) : Agree Any (Model.Leak.Skein.KSt F r keys tweaks i G) (Model.Leak.Skein.KSt F r keys' tweaks' i G') := by
  unfold Model.Leak.Skein.KSt
  agree []

theorem KStRv4_erase (F : Fns) (r : Nat) (keys : List (BitVec 64)) (tweaks : List (BitVec 64)) (G : List (BitVec 64)) : L.erase (Model.Leak.Skein.KStRv4 F r keys tweaks G) = Model.Locals.Skein.KStRv4 F r keys tweaks G := by
  unfold Model.Leak.Skein.KStRv4 Model.Locals.Skein.KStRv4
  erase_simp [Skein.KSt_erase]

theorem KStRv4_agree (F : Fns) (r : Nat) (keys keys' : List (BitVec 64)) (tweaks tweaks' : List (BitVec 64)) (G G' : List (BitVec 64)) : Agree Any (Model.Leak.Skein.KStRv4 F r keys tweaks G) (Model.Leak.Skein.KStRv4 F r keys' tweaks' G') := by
  unfold Model.Leak.Skein.KStRv4
  agree [(Skein.KSt_agree _ _ _ _ _ _ _ _ _)]

theorem G8_erase (F : Fns) (r : Nat) (keys : List (BitVec 64)) (tweaks : List (BitVec 64)) (G : List (BitVec 64)) : L.erase (Model.Leak.Skein.G8 F r keys tweaks G) = Model.Locals.Skein.G8 F r keys tweaks G := by
  unfold Model.Leak.Skein.G8 Model.Locals.Skein.G8
  erase_simp [Skein.GTv4_erase, Skein.KStRv4_erase]

theorem G8_agree (F : Fns) (r : Nat) (keys keys' : List (BitVec 64)) (tweaks tweaks' : List (BitVec 64)) (G G' : List (BitVec 64)) : Agree Any (Model.Leak.Skein.G8 F r keys tweaks G) (Model.Leak.Skein.G8 F r keys' tweaks' G') := by
  unfold Model.Leak.Skein.G8
  agree [(Skein.GTv4_agree _ _ _ _), (Skein.KStRv4_agree _ _ _ _ _ _ _ _)]

theorem loadM_erase (F : Fns) (mp : Bytes) (b : Nat) (Mw : List (BitVec 64)) : L.erase (Model.Leak.Skein.loadM F mp b Mw) = Model.Locals.Skein.loadM F mp b Mw := by
  unfold Model.Leak.Skein.loadM Model.Locals.Skein.loadM
  erase_simp []

theorem loadM_agree (F : Fns) (mp mp' : Bytes) (b : Nat) (Mw Mw' : List (BitVec 64)) : Agree Any (Model.Leak.Skein.loadM F mp b Mw) (Model.Leak.Skein.loadM F mp' b Mw') := by
  unfold Model.Leak.Skein.loadM
  agree []

theorem copyKeys_erase (F : Fns) (H : List (BitVec 64)) (keys : List (BitVec 64)) : L.erase (Model.Leak.Skein.copyKeys F H keys) = Model.Locals.Skein.copyKeys F H keys := by
  unfold Model.Leak.Skein.copyKeys Model.Locals.Skein.copyKeys
  erase_simp []

theorem copyKeys_agree (F : Fns) (H H' : List (BitVec 64)) (keys keys' : List (BitVec 64)) : Agree Any (Model.Leak.Skein.copyKeys F H keys) (Model.Leak.Skein.copyKeys F H' keys') := by
  unfold Model.Leak.Skein.copyKeys
  agree []

theorem setTweaks_erase (reallen : Nat) (h : St) (tweaks : List (BitVec 64)) : L.erase (Model.Leak.Skein.setTweaks reallen h tweaks) = Model.Locals.Skein.setTweaks reallen h tweaks := by
  unfold Model.Leak.Skein.setTweaks Model.Locals.Skein.setTweaks
  erase_simp []

theorem setTweaks_agree (reallen : Nat) (h h' : St) (tweaks tweaks' : List (BitVec 64)) : Agree Any (Model.Leak.Skein.setTweaks reallen h tweaks) (Model.Leak.Skein.setTweaks reallen h' tweaks') := by
  unfold Model.Leak.Skein.setTweaks
  agree []

theorem addKeys_erase (F : Fns) (Mw : List (BitVec 64)) (kG : List (BitVec 64) × List (BitVec 64)) : L.erase (Model.Leak.Skein.addKeys F Mw kG) = Model.Locals.Skein.addKeys F Mw kG := by
  unfold Model.Leak.Skein.addKeys Model.Locals.Skein.addKeys
  erase_simp []

theorem addKeys_agree (F : Fns) (Mw Mw' : List (BitVec 64)) (kG kG' : List (BitVec 64) × List (BitVec 64)) : Agree Any (Model.Leak.Skein.addKeys F Mw kG) (Model.Leak.Skein.addKeys F Mw' kG') := by
  unfold Model.Leak.Skein.addKeys
  agree []

theorem store_erase (F : Fns) (G : List (BitVec 64)) (Mw : List (BitVec 64)) (H : List (BitVec 64)) : L.erase (Model.Leak.Skein.store F G Mw H) = Model.Locals.Skein.store F G Mw H := by
  unfold Model.Leak.Skein.store Model.Locals.Skein.store
  erase_simp []

theorem store_agree (F : Fns) (G G' : List (BitVec 64)) (Mw Mw' : List (BitVec 64)) (H H' : List (BitVec 64)) : Agree Any (Model.Leak.Skein.store F G Mw H) (Model.Leak.Skein.store F G' Mw' H') := by
  unfold Model.Leak.Skein.store
  agree []

theorem block_erase (F : Fns) (reallen : Nat) (k : Stack) (mp : Bytes) (b : Nat) (e : Env) : L.erase (Model.Leak.Skein.block F reallen k mp b e) = Model.Locals.Skein.block F reallen k mp b e := by
  unfold Model.Leak.Skein.block Model.Locals.Skein.block
  erase_simp [Skein.G8_erase, Skein.loadM_erase, Skein.copyKeys_erase, Skein.setTweaks_erase, Skein.addKeys_erase, Skein.store_erase]

theorem block_agree (F : Fns) (reallen : Nat) (k k' : Stack) (mp mp' : Bytes) (b : Nat) (e e' : Env) : Agree Any (Model.Leak.Skein.block F reallen k mp b e) (Model.Leak.Skein.block F reallen k' mp' b e') := by
  unfold Model.Leak.Skein.block
  agree [(Skein.G8_agree _ _ _ _ _ _ _ _), (Skein.loadM_agree _ _ _ _ _ _), (Skein.copyKeys_agree _ _ _ _ _), (Skein.setTweaks_agree _ _ _ _ _), (Skein.addKeys_agree _ _ _ _ _), (Skein.store_agree _ _ _ _ _ _ _)]

theorem transform_erase (F : Fns) (k : Nat → Stack) (keys : List (BitVec 64)) (tweaks : List (BitVec 64)) (reallen : Nat) (mp : Bytes) (n : Nat) (s : Blk St) : L.erase (Model.Leak.Skein.transform F k keys tweaks reallen mp n s) = Model.Locals.Skein.transform F k keys tweaks reallen mp n s := by
  unfold Model.Leak.Skein.transform Model.Locals.Skein.transform
  erase_simp [Skein.block_erase]

theorem transform_agree (F : Fns) (k k' : Nat → Stack) (keys keys' : List (BitVec 64)) (tweaks tweaks' : List (BitVec 64)) (reallen : Nat) (mp mp' : Bytes) (n : Nat) (s s' : Blk St) : Agree Any (Model.Leak.Skein.transform F k keys tweaks reallen mp n s) (Model.Leak.Skein.transform F k' keys' tweaks' reallen mp' n s') := by
  unfold Model.Leak.Skein.transform
  agree [(Skein.block_agree _ _ _ _ _ _ _ _ _)]

end Digestpp.Proofs.Leak.Skein
