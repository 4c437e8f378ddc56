import Verif.Proofs.Cpp.Absorb
import Verif.Proofs.Cpp.Md5
import Verif.Proofs.Cpp.Sha1
import Verif.Proofs.Cpp.Sha256
import Verif.Proofs.Cpp.Sha512
import Verif.Proofs.Arrays

/-! C71: calls of the transformations from the other member functions. -/

namespace Digestpp.Cpp
open Model (Blk loop readBytes rd32 rd64)
open Absorb (Trans)
attribute [local irreducible] eval exec block

variable {N : Nat}

theorem readBytes_of_le {src : Bytes} {o n : Nat} (h : o + n ≤ src.length) : readBytes src o n = .ok ((src.drop o).take n) := if_pos h

theorem in_blocks {b n bs len : Nat} (hb : b < n) (h : n * bs ≤ len) : b * bs + bs ≤ len := by
  have : (b + 1) * bs ≤ n * bs := Nat.mul_le_mul_right bs hb
  rw [Nat.add_mul, Nat.one_mul] at this
  omega

theorem invoke_run {f : Nat} {body : Stmt} {x y v : Val} {vs vs' : List Val} {A A' : List Arr} (hy : conv .u64 y = some v)
    (h : exec N (fun _ _ _ _ => none) body ⟨[x, v], A⟩ = some ⟨vs', A'⟩) : invoke N body f x y ⟨vs, A⟩ = some ⟨vs, A'⟩ := by
  show Option.bind (conv .u64 y) _ = _
  rw [hy]
  show Option.map _ (exec N _ body ⟨[x, v], A⟩) = _
  rw [h]
  rfl

namespace Md5

/-- The chaining value is in the array after `m`. -/
def R (h : List (BitVec 32)) (rest : List Arr) : Prop := h.length = 4 ∧ rest = [.a32 h]

theorem trans : Trans N 64 R Model.Md5.transform (invoke N Src.Md5.transform) := by
  rintro data m src p o n y s s' rest vs hs hb hl hn hy ⟨hH, rfl⟩ h
  have hlen : n * 64 ≤ (src.drop o).length := by rw [List.length_drop]; omega
  rw [← Proofs.Locals.Md5.transform_eq _ _ hlen s hH] at h
  obtain ⟨h', e1, e2⟩ := then_ok h
  obtain rfl := Except.ok.inj e2
  obtain ⟨e, x, more, l, rfl⟩ := transform_run (N := N) (ext := fun _ _ _ _ => none) (m := m) hH hn (by omega) hs e1
  exact ⟨h', _, rfl, ⟨l, rfl⟩, invoke_run hy x⟩

end Md5

namespace Sha1

/-- The chaining value is in the array after `m`, the local arrays of `transform` follow it. -/
def R (h : List (BitVec 32)) (rest : List Arr) : Prop := h.length = 5 ∧ ∃ M W : List (BitVec 32), M.length = 16 ∧ W.length = 80 ∧ rest = [.a32 h, .a32 M, .a32 W]

theorem trans (hN : 80 < N) : Trans N 64 R Model.Sha1.transform (invoke N Src.Sha1.transform) := by
  rintro data m src p o n y s s' rest vs hs hb hl hn hy ⟨hH, M, W, hM, hW, rfl⟩ h
  have hlen : n * 64 ≤ (src.drop o).length := by rw [List.length_drop]; omega
  rw [← Proofs.Locals.Sha1.transform_eq (fun _ => ⟨List.replicate 16 0, List.replicate 80 0⟩) (fun _ => ⟨List.length_replicate, List.length_replicate⟩) _ _ hlen s hH] at h
  obtain ⟨h', e1, e2⟩ := then_ok h
  obtain rfl := Except.ok.inj e2
  obtain ⟨e, x, M', W', lM, lW, lH, rfl⟩ := transform_run (N := N) (ext := fun _ _ _ _ => none) (m := m) ⟨List.replicate 16 0, List.replicate 80 0⟩ hM hW hH hN hn (by omega) hs
    (fun blk M W H hb hM hW hH => by
      have hr := readBytes_of_le (in_blocks hb hlen)
      rw [Proofs.Locals.Sha1.block_eq _ ⟨List.length_replicate, List.length_replicate⟩ _ _ _ hr H hH, Proofs.Locals.Sha1.block_eq _ ⟨hM, hW⟩ _ _ _ hr H hH]) e1
  exact ⟨h', _, rfl, ⟨lH, M', W', lM, lW, rfl⟩, invoke_run hy x⟩

end Sha1

namespace Sha256

/-- The chaining value is in the array after `m`, the local arrays of `transform` follow it. -/
def R (h : Model.Sha2.St 32) (rest : List Arr) : Prop := h.H.length = 8 ∧ ∃ M W : List (BitVec 32), M.length = 16 ∧ W.length = 64 ∧ rest = [.a32 h.H, .a32 M, .a32 W]

theorem block_any {k : Model.Locals.Sha2.Stack 32} (hk : k.Sized Model.Sha2.u32) {src : Bytes} {n blk : Nat} (hb : blk < n) (hl : n * 64 ≤ src.length) {h : Model.Sha2.St 32}
    (hH : h.H.length = 8) : Model.Locals.Sha2.block Model.Sha2.u32 rd32 k src blk h = .ok { h with H := Model.Sha2.compress Model.Sha2.u32 ((src.drop (blk * 64)).take 64) h.H } :=
  Proofs.Locals.Sha2.block_eq Model.Sha2.u32 rd32 (by decide) (by decide) (fun _ _ _ _ h hi => Proofs.rd32_block (n := 16) h hi) (Proofs.Locals.loads32_length 16) k hk src blk _
    (readBytes_of_le (in_blocks hb hl)) h hH

theorem trans (hN : 80 < N) : Trans N 64 R (Model.Sha2.transform Model.Sha2.u32) (invoke N Src.Sha256.transform) := by
  rintro data m src p o n y s s' rest vs hs hb hl hn hy ⟨hH, M, W, hM, hW, rfl⟩ h
  have hlen : n * 64 ≤ (src.drop o).length := by rw [List.length_drop]; omega
  rw [← Proofs.Locals.Sha2.transform_eq Model.Sha2.u32 rd32 (by decide) (by decide) (fun _ _ _ _ h hi => Proofs.rd32_block (n := 16) h hi) (Proofs.Locals.loads32_length 16)
    (fun _ => ⟨List.replicate 16 0, List.replicate 64 0⟩) (fun _ => ⟨List.length_replicate, List.length_replicate⟩) _ _ hlen s hH] at h
  obtain ⟨h', e1, e2⟩ := then_ok h
  obtain rfl := Except.ok.inj e2
  obtain ⟨e, x, M', W', lM, lW, lH, rfl⟩ := transform_run (N := N) (ext := fun _ _ _ _ => none) (m := m) ⟨List.replicate 16 0, List.replicate 64 0⟩ hM hW hH hN hn (by omega) hs
    (fun blk M W H hb hM hW hH => by
      rw [block_any ⟨List.length_replicate, List.length_replicate⟩ hb hlen hH, block_any ⟨hM, hW⟩ hb hlen hH]) e1
  exact ⟨h', _, rfl, ⟨lH, M', W', lM, lW, rfl⟩, invoke_run hy x⟩

end Sha256

namespace Sha512

/-- The chaining value is in the array after `m`, the local arrays of `transform` follow it. -/
def R (h : Model.Sha2.St 64) (rest : List Arr) : Prop := h.H.length = 8 ∧ ∃ M W : List (BitVec 64), M.length = 16 ∧ W.length = 80 ∧ rest = [.a64 h.H, .a64 M, .a64 W]

theorem block_any {k : Model.Locals.Sha2.Stack 64} (hk : k.Sized Model.Sha2.u64) {src : Bytes} {n blk : Nat} (hb : blk < n) (hl : n * 128 ≤ src.length) {h : Model.Sha2.St 64}
    (hH : h.H.length = 8) : Model.Locals.Sha2.block Model.Sha2.u64 rd64 k src blk h = .ok { h with H := Model.Sha2.compress Model.Sha2.u64 ((src.drop (blk * 128)).take 128) h.H } :=
  Proofs.Locals.Sha2.block_eq Model.Sha2.u64 rd64 (by decide) (by decide) (fun _ _ _ _ h hi => Proofs.rd64_block (n := 16) h hi) (Proofs.Locals.loads64_length 16) k hk src blk _
    (readBytes_of_le (in_blocks hb hl)) h hH

theorem trans (hN : 80 < N) : Trans N 128 R (Model.Sha2.transform Model.Sha2.u64) (invoke N Src.Sha512.transform) := by
  rintro data m src p o n y s s' rest vs hs hb hl hn hy ⟨hH, M, W, hM, hW, rfl⟩ h
  have hlen : n * 128 ≤ (src.drop o).length := by rw [List.length_drop]; omega
  rw [← Proofs.Locals.Sha2.transform_eq Model.Sha2.u64 rd64 (by decide) (by decide) (fun _ _ _ _ h hi => Proofs.rd64_block (n := 16) h hi) (Proofs.Locals.loads64_length 16)
    (fun _ => ⟨List.replicate 16 0, List.replicate 80 0⟩) (fun _ => ⟨List.length_replicate, List.length_replicate⟩) _ _ hlen s hH] at h
  obtain ⟨h', e1, e2⟩ := then_ok h
  obtain rfl := Except.ok.inj e2
  obtain ⟨e, x, M', W', lM, lW, lH, rfl⟩ := transform_run (N := N) (ext := fun _ _ _ _ => none) (m := m) ⟨List.replicate 16 0, List.replicate 80 0⟩ hM hW hH hN hn (by omega) hs
    (fun blk M W H hb hM hW hH => by
      rw [block_any ⟨List.length_replicate, List.length_replicate⟩ hb hlen hH, block_any ⟨hM, hW⟩ hb hlen hH]) e1
  exact ⟨h', _, rfl, ⟨lH, M', W', lM, lW, rfl⟩, invoke_run hy x⟩

end Sha512
end Digestpp.Cpp
