import Verif.Proofs.Leak.Basic
import Verif.Model.Leak.Blake

/-! Traces of the functions of `Model/Leak/Blake`: without the trace they are those of `Model/Locals`; the trace is the same for all data. -/

namespace Digestpp.Proofs.Leak.Blake
open Model
open Model.Blake
open Locals.Blake (Stack)
variable {w : Nat}
theorem atQuad_erase (g : Quad w → L (Quad w)) (gM : Quad w → M (Quad w)) (ia : Nat) (ib : Nat) (ic : Nat) (id : Nat) (v : List (BitVec w)) (hg : ∀ x0, L.erase (g x0) = gM x0) : L.erase (Model.Leak.Blake.atQuad g ia ib ic id v) = Model.Locals.Blake.atQuad gM ia ib ic id v := by
  unfold Model.Leak.Blake.atQuad Model.Locals.Blake.atQuad
  erase_simp [hg]

theorem atQuad_agree (g g' : Quad w → L (Quad w)) (ia : Nat) (ib : Nat) (ic : Nat) (id : Nat) (v v' : List (BitVec w)) (hg : ∀ x0 x0', Agree Any (g x0) (g' x0')) : Agree Any (Model.Leak.Blake.atQuad g ia ib ic id v) (Model.Leak.Blake.atQuad g' ia ib ic id v') := by
  unfold Model.Leak.Blake.atQuad
  agree [(hg _ _)]

theorem round_erase (g : Nat → Quad w → L (Quad w)) (gM : Nat → Quad w → M (Quad w)) (v : List (BitVec w)) (hg : ∀ x0 x1, L.erase (g x0 x1) = gM x0 x1) : L.erase (Model.Leak.Blake.round g v) = Model.Locals.Blake.round gM v := by
  unfold Model.Leak.Blake.round Model.Locals.Blake.round
  erase_simp [Blake.atQuad_erase _ _ _ _ _ _ _ (hg _)]

theorem round_agree (g g' : Nat → Quad w → L (Quad w)) (v v' : List (BitVec w)) (hg : ∀ x0 x1 x1', Agree Any (g x0 x1) (g' x0 x1')) : Agree Any (Model.Leak.Blake.round g v) (Model.Leak.Blake.round g' v') := by
  unfold Model.Leak.Blake.round
  agree [(Blake.atQuad_agree _ _ _ _ _ _ _ _ (hg _))]

theorem copy8_erase (H : List (BitVec w)) (v : List (BitVec w)) : L.erase (Model.Leak.Blake.copy8 H v) = Model.Locals.Blake.copy8 H v := by
  unfold Model.Leak.Blake.copy8 Model.Locals.Blake.copy8
  erase_simp []

theorem copy8_agree (H H' : List (BitVec w)) (v v' : List (BitVec w)) : Agree Any (Model.Leak.Blake.copy8 H v) (Model.Leak.Blake.copy8 H' v') := by
  unfold Model.Leak.Blake.copy8
  agree []

theorem perm_erase (S : List (List (BitVec 32))) (r : Nat) (j : Nat) : L.erase (Model.Leak.Blake.perm S r j) = Model.Locals.Blake.perm S r j := by
  unfold Model.Leak.Blake.perm Model.Locals.Blake.perm
  erase_simp []

theorem perm_agree (S : List (List (BitVec 32))) (r : Nat) (j : Nat) : Agree Any (Model.Leak.Blake.perm S r j) (Model.Leak.Blake.perm S r j) := by
  unfold Model.Leak.Blake.perm
  agree []

theorem G_erase (T : Word w) (Mw : List (BitVec w)) (r : Nat) (i : Nat) (q : Quad w) : L.erase (Model.Leak.Blake.G T Mw r i q) = Model.Locals.Blake.G T Mw r i q := by
  unfold Model.Leak.Blake.G Model.Locals.Blake.G
  erase_simp [Blake.perm_erase]

theorem G_agree (T : Word w) (Mw Mw' : List (BitVec w)) (r : Nat) (i : Nat) (q q' : Quad w) : Agree Any (Model.Leak.Blake.G T Mw r i q) (Model.Leak.Blake.G T Mw' r i q') := by
  unfold Model.Leak.Blake.G
  agree [(Blake.perm_agree _ _ _)]

theorem loadM_erase (T : Word w) (ld : Bytes → Nat → L (BitVec w)) (ldM : Bytes → Nat → M (BitVec w)) (data : Bytes) (blk : Nat) (Mw : List (BitVec w)) (hld : ∀ x0 x1, L.erase (ld x0 x1) = ldM x0 x1) : L.erase (Model.Leak.Blake.loadM T ld data blk Mw) = Model.Locals.Blake.loadM T ldM data blk Mw := by
  unfold Model.Leak.Blake.loadM Model.Locals.Blake.loadM
  erase_simp [hld]

theorem loadM_agree (T : Word w) (ld : Bytes → Nat → L (BitVec w)) (data data' : Bytes) (blk : Nat) (Mw Mw' : List (BitVec w)) (hld : ∀ x0 x1 x0', Agree Any (ld x0 x1) (ld x0' x1)) : Agree Any (Model.Leak.Blake.loadM T ld data blk Mw) (Model.Leak.Blake.loadM T ld data' blk Mw') := by
  unfold Model.Leak.Blake.loadM
  agree [(hld _ _ _)]

theorem mixSalt_erase (T : Word w) (H : List (BitVec w)) (i : Nat) (v : List (BitVec w)) : L.erase (Model.Leak.Blake.mixSalt T H i v) = Model.Locals.Blake.mixSalt T H i v := by
  unfold Model.Leak.Blake.mixSalt Model.Locals.Blake.mixSalt
  erase_simp []

theorem mixSalt_agree (T : Word w) (H H' : List (BitVec w)) (i : Nat) (v v' : List (BitVec w)) : Agree Any (Model.Leak.Blake.mixSalt T H i v) (Model.Leak.Blake.mixSalt T H' i v') := by
  unfold Model.Leak.Blake.mixSalt
  agree []

theorem mixT_erase (T : Word w) (t : BitVec w) (i : Nat) (v : List (BitVec w)) : L.erase (Model.Leak.Blake.mixT T t i v) = Model.Locals.Blake.mixT T t i v := by
  unfold Model.Leak.Blake.mixT Model.Locals.Blake.mixT
  erase_simp []

theorem mixT_agree (T : Word w) (t t' : BitVec w) (i : Nat) (v v' : List (BitVec w)) : Agree Any (Model.Leak.Blake.mixT T t i v) (Model.Leak.Blake.mixT T t' i v') := by
  unfold Model.Leak.Blake.mixT
  agree []

theorem start_erase (T : Word w) (t : BitVec w × BitVec w) (H : List (BitVec w)) (v : List (BitVec w)) : L.erase (Model.Leak.Blake.start T t H v) = Model.Locals.Blake.start T t H v := by
  unfold Model.Leak.Blake.start Model.Locals.Blake.start
  erase_simp [Blake.copy8_erase, Blake.mixSalt_erase, Blake.mixT_erase]

theorem start_agree (T : Word w) (t t' : BitVec w × BitVec w) (H H' : List (BitVec w)) (v v' : List (BitVec w)) : Agree Any (Model.Leak.Blake.start T t H v) (Model.Leak.Blake.start T t' H' v') := by
  unfold Model.Leak.Blake.start
  agree [(Blake.copy8_agree _ _ _ _), (Blake.mixSalt_agree _ _ _ _ _ _), (Blake.mixT_agree _ _ _ _ _ _)]

theorem fold_erase (v : List (BitVec w)) (i : Nat) (H : List (BitVec w)) : L.erase (Model.Leak.Blake.fold v i H) = Model.Locals.Blake.fold v i H := by
  unfold Model.Leak.Blake.fold Model.Locals.Blake.fold
  erase_simp []

theorem fold_agree (v v' : List (BitVec w)) (i : Nat) (H H' : List (BitVec w)) : Agree Any (Model.Leak.Blake.fold v i H) (Model.Leak.Blake.fold v' i H') := by
  unfold Model.Leak.Blake.fold
  agree []

theorem block_erase (T : Word w) (ld : Bytes → Nat → L (BitVec w)) (ldM : Bytes → Nat → M (BitVec w)) (bs : Nat) (padding : Bool) (final : Bool) (total : BitVec 64) (k : Stack w) (data : Bytes) (blk : Nat) (H : List (BitVec w)) (hld : ∀ x0 x1, L.erase (ld x0 x1) = ldM x0 x1) : L.erase (Model.Leak.Blake.block T ld bs padding final total k data blk H) = Model.Locals.Blake.block T ldM bs padding final total k data blk H := by
  unfold Model.Leak.Blake.block Model.Locals.Blake.block
  erase_simp [hld, Blake.round_erase _ _ _ (G_erase T _ _), Blake.loadM_erase (hld := hld), Blake.start_erase, Blake.fold_erase]

theorem block_agree (T : Word w) (ld : Bytes → Nat → L (BitVec w)) (bs : Nat) (padding : Bool) (final : Bool) (total total' : BitVec 64) (k k' : Stack w) (data data' : Bytes) (blk : Nat) (H H' : List (BitVec w)) (hld : ∀ x0 x1 x0', Agree Any (ld x0 x1) (ld x0' x1)) : Agree Any (Model.Leak.Blake.block T ld bs padding final total k data blk H) (Model.Leak.Blake.block T ld bs padding final total' k' data' blk H') := by
  unfold Model.Leak.Blake.block
  agree [(Blake.round_agree _ _ _ _ fun _ _ _ => G_agree _ _ _ _ _ _ _), (Blake.loadM_agree _ _ _ _ _ _ _ hld), (Blake.start_agree _ _ _ _ _ _ _), (Blake.fold_agree _ _ _ _ _), (hld _ _ _)]

theorem transform_erase (k512 : Nat → Stack 64) (k256 : Nat → Stack 32) (padding : Bool) (final : Bool) (data : Bytes) (n : Nat) (s : Blk St) : L.erase (Model.Leak.Blake.transform k512 k256 padding final data n s) = Model.Locals.Blake.transform k512 k256 padding final data n s := by
  unfold Model.Leak.Blake.transform Model.Locals.Blake.transform
  erase_simp [block_erase u64 Leak.rd64 rd64 (hld := erase_rd64), block_erase u32 Leak.rd32 rd32 (hld := erase_rd32)]

theorem transform_agree (k512 k512' : Nat → Stack 64) (k256 k256' : Nat → Stack 32) (padding : Bool) (final : Bool) (data data' : Bytes) (n : Nat) (s s' : Blk St) (hs : s.h.hs = s'.h.hs) : Agree Any (Model.Leak.Blake.transform k512 k256 padding final data n s) (Model.Leak.Blake.transform k512' k256' padding final data' n s') := by
  unfold Model.Leak.Blake.transform
  rw [hs]
  agree [(Blake.block_agree _ _ _ _ _ _ _ _ _ _ _ _ _ _ fun _ _ _ => Agree.rd64), (Blake.block_agree _ _ _ _ _ _ _ _ _ _ _ _ _ _ fun _ _ _ => Agree.rd32)]

end Digestpp.Proofs.Leak.Blake
namespace Digestpp.Proofs.Leak.Blake2
open Model
open Model.Blake (Quad)
open Model.Blake2 Leak.Blake
open Locals.Blake (Stack)
variable {w : Nat}
theorem G_erase (T : Word w) (Mw : List (BitVec w)) (r : Nat) (i : Nat) (q : Quad w) : L.erase (Model.Leak.Blake2.G T Mw r i q) = Model.Locals.Blake2.G T Mw r i q := by
  unfold Model.Leak.Blake2.G Model.Locals.Blake2.G
  erase_simp [Blake.perm_erase]

theorem G_agree (T : Word w) (Mw Mw' : List (BitVec w)) (r : Nat) (i : Nat) (q q' : Quad w) : Agree Any (Model.Leak.Blake2.G T Mw r i q) (Model.Leak.Blake2.G T Mw' r i q') := by
  unfold Model.Leak.Blake2.G
  agree [(Blake.perm_agree _ _ _)]

theorem loadM_erase (ld : Bytes → Nat → L (BitVec w)) (ldM : Bytes → Nat → M (BitVec w)) (data : Bytes) (blk : Nat) (Mw : List (BitVec w)) (hld : ∀ x0 x1, L.erase (ld x0 x1) = ldM x0 x1) : L.erase (Model.Leak.Blake2.loadM ld data blk Mw) = Model.Locals.Blake2.loadM ldM data blk Mw := by
  unfold Model.Leak.Blake2.loadM Model.Locals.Blake2.loadM
  erase_simp [hld]

theorem loadM_agree (ld : Bytes → Nat → L (BitVec w)) (data data' : Bytes) (blk : Nat) (Mw Mw' : List (BitVec w)) (hld : ∀ x0 x1 x0', Agree Any (ld x0 x1) (ld x0' x1)) : Agree Any (Model.Leak.Blake2.loadM ld data blk Mw) (Model.Leak.Blake2.loadM ld data' blk Mw') := by
  unfold Model.Leak.Blake2.loadM
  agree [(hld _ _ _)]

theorem mixIV_erase (T : Word w) (i : Nat) (v : List (BitVec w)) : L.erase (Model.Leak.Blake2.mixIV T i v) = Model.Locals.Blake2.mixIV T i v := by
  unfold Model.Leak.Blake2.mixIV Model.Locals.Blake2.mixIV
  erase_simp []

theorem mixIV_agree (T : Word w) (i : Nat) (v v' : List (BitVec w)) : Agree Any (Model.Leak.Blake2.mixIV T i v) (Model.Leak.Blake2.mixIV T i v') := by
  unfold Model.Leak.Blake2.mixIV
  agree []

theorem mixT_erase (T : Word w) (t : BitVec w) (i : Nat) (v : List (BitVec w)) : L.erase (Model.Leak.Blake2.mixT T t i v) = Model.Locals.Blake2.mixT T t i v := by
  unfold Model.Leak.Blake2.mixT Model.Locals.Blake2.mixT
  erase_simp []

theorem mixT_agree (T : Word w) (t t' : BitVec w) (i : Nat) (v v' : List (BitVec w)) : Agree Any (Model.Leak.Blake2.mixT T t i v) (Model.Leak.Blake2.mixT T t' i v') := by
  unfold Model.Leak.Blake2.mixT
  agree []

theorem start_erase (T : Word w) (totalbytes : BitVec 64) (f0 : BitVec w) (f1 : BitVec w) (H : List (BitVec w)) (v : List (BitVec w)) : L.erase (Model.Leak.Blake2.start T totalbytes f0 f1 H v) = Model.Locals.Blake2.start T totalbytes f0 f1 H v := by
  unfold Model.Leak.Blake2.start Model.Locals.Blake2.start
  erase_simp [Blake.copy8_erase, Blake2.mixIV_erase, Blake2.mixT_erase]

theorem start_agree (T : Word w) (totalbytes totalbytes' : BitVec 64) (f0 f0' : BitVec w) (f1 f1' : BitVec w) (H H' : List (BitVec w)) (v v' : List (BitVec w)) : Agree Any (Model.Leak.Blake2.start T totalbytes f0 f1 H v) (Model.Leak.Blake2.start T totalbytes' f0' f1' H' v') := by
  unfold Model.Leak.Blake2.start
  agree [(Blake.copy8_agree _ _ _ _), (Blake2.mixIV_agree _ _ _ _), (Blake2.mixT_agree _ _ _ _ _ _)]

theorem fold_erase (v : List (BitVec w)) (i : Nat) (H : List (BitVec w)) : L.erase (Model.Leak.Blake2.fold v i H) = Model.Locals.Blake2.fold v i H := by
  unfold Model.Leak.Blake2.fold Model.Locals.Blake2.fold
  erase_simp []

theorem fold_agree (v v' : List (BitVec w)) (i : Nat) (H H' : List (BitVec w)) : Agree Any (Model.Leak.Blake2.fold v i H) (Model.Leak.Blake2.fold v' i H') := by
  unfold Model.Leak.Blake2.fold
  agree []

theorem block_erase (T : Word w) (ld : Bytes → Nat → L (BitVec w)) (ldM : Bytes → Nat → M (BitVec w)) (padding : Bool) (total : BitVec 64) (k : Stack w) (data : Bytes) (blk : Nat) (h : St w) (hld : ∀ x0 x1, L.erase (ld x0 x1) = ldM x0 x1) : L.erase (Model.Leak.Blake2.block T ld padding total k data blk h) = Model.Locals.Blake2.block T ldM padding total k data blk h := by
  unfold Model.Leak.Blake2.block Model.Locals.Blake2.block
  erase_simp [hld, Blake.round_erase _ _ _ (G_erase T _ _), Blake2.loadM_erase (hld := hld), Blake2.start_erase, Blake2.fold_erase]

theorem block_agree (T : Word w) (ld : Bytes → Nat → L (BitVec w)) (padding : Bool) (total total' : BitVec 64) (k k' : Stack w) (data data' : Bytes) (blk : Nat) (h h' : St w) (hld : ∀ x0 x1 x0', Agree Any (ld x0 x1) (ld x0' x1)) : Agree Any (Model.Leak.Blake2.block T ld padding total k data blk h) (Model.Leak.Blake2.block T ld padding total' k' data' blk h') := by
  unfold Model.Leak.Blake2.block
  agree [(Blake.round_agree _ _ _ _ fun _ _ _ => G_agree _ _ _ _ _ _ _), (Blake2.loadM_agree _ _ _ _ _ _ hld), (Blake2.start_agree _ _ _ _ _ _ _ _ _ _ _), (Blake2.fold_agree _ _ _ _ _), (hld _ _ _)]

theorem transform_erase (T : Word w) (ld : Bytes → Nat → L (BitVec w)) (ldM : Bytes → Nat → M (BitVec w)) (k : Nat → Stack w) (padding : Bool) (data : Bytes) (n : Nat) (s : Blk (St w)) (hld : ∀ x0 x1, L.erase (ld x0 x1) = ldM x0 x1) : L.erase (Model.Leak.Blake2.transform T ld k padding data n s) = Model.Locals.Blake2.transform T ldM k padding data n s := by
  unfold Model.Leak.Blake2.transform Model.Locals.Blake2.transform
  erase_simp [hld, Blake2.block_erase (hld := hld)]

theorem transform_agree (T : Word w) (ld : Bytes → Nat → L (BitVec w)) (k k' : Nat → Stack w) (padding : Bool) (data data' : Bytes) (n : Nat) (s s' : Blk (St w)) (hld : ∀ x0 x1 x0', Agree Any (ld x0 x1) (ld x0' x1)) : Agree Any (Model.Leak.Blake2.transform T ld k padding data n s) (Model.Leak.Blake2.transform T ld k' padding data' n s') := by
  unfold Model.Leak.Blake2.transform
  agree [(Blake2.block_agree _ _ _ _ _ _ _ _ _ _ _ _ hld), (hld _ _ _)]

end Digestpp.Proofs.Leak.Blake2
