import Verif.Cpp.Program
import Verif.Proofs.Cpp.Members
import Verif.Proofs.Md5
import Verif.Proofs.Sha1
import Verif.Proofs.Sha2

/-! C71: the member functions together. -/

namespace Digestpp.Cpp
open Model Spec
open Proofs (HashRefines Buffered)
attribute [local irreducible] eval exec block

variable {N : Nat} {σ : Type} {pr : HashProvider (Blk σ) Empty} {f : HashFn Empty Unit} {A : Unit → Bytes → Blk σ → Prop} {R : σ → List Arr → Prop} {c : Class} {bs ml : Nat}

theorem memcpyTo_all {out b : Bytes} (h : out.length = b.length) : memcpyTo out 0 b = .ok b := by
  unfold memcpyTo
  rw [if_pos (by omega), List.take_zero, List.nil_append, List.drop_of_length_le (by omega), List.append_nil]

theorem absorb_source (ref : HashRefines pr f (Cover.all Empty) A)
    (hA : ∀ msg s, A () msg s → s.m.length = ml ∧ s.pos ≤ bs)
    (hu : ∀ (data : Bytes) (s s' : Blk σ) rest, data.length < 2 ^ 63 → data.length < N → s.m.length = ml → s.pos ≤ bs → R s.h rest → pr.update data s = .ok s' →
      ∃ e, exec N (invoke N c.transform) c.update
        ⟨[.ptr 0 0 1, .u64 (BitVec.ofNat 64 data.length), .u64 (BitVec.ofNat 64 s.pos), .u64 s.total], .a8 data :: .a8 s.m :: rest⟩ = some e ∧
        ∃ rest', R s'.h rest' ∧
          e = ⟨[.ptr 0 0 1, .u64 (BitVec.ofNat 64 data.length), .u64 (BitVec.ofNat 64 s'.pos), .u64 s'.total], .a8 data :: .a8 s'.m :: rest'⟩)
    (hf : ∀ (out out' b : Bytes) (msg : Bytes) (s : Blk σ) rest, A () msg s → s.m.length = ml → R s.h rest → pr.final s = .ok b → memcpyTo out 0 b = .ok out' →
      ∃ e, exec N (invoke N c.transform) c.final ⟨.ptr 0 0 1 :: .u64 (BitVec.ofNat 64 s.pos) :: .u64 s.total :: c.more, .a8 out :: .a8 s.m :: rest⟩ = some e ∧
        e.arrs[0]? = some (.a8 out'))
    {parts : List Bytes} (hp : ∀ d ∈ parts, d.length < 2 ^ 63) (hN : ∀ d ∈ parts, d.length < N) {out : Bytes} (ho : out.length = f.size) {msg : Bytes} {s : Blk σ} {rest : List Arr}
    (hs : A () msg s) (hr : R s.h rest) :
    c.absorb N parts out ⟨.u64 (BitVec.ofNat 64 s.pos), .u64 s.total, .a8 s.m :: rest⟩ = some (f.digest () (msg ++ parts.flatten)) := by
  induction parts generalizing msg s rest with
  | nil =>
    have e := ref.final () msg s hs trivial
    obtain ⟨x, e1, e2⟩ := hf out _ _ msg s rest hs (hA msg s hs).1 hr e (memcpyTo_all (ho.trans (ref.digest_length () msg s hs trivial).symm))
    rw [List.flatten_nil, List.append_nil]
    show c.runFinal N _ out = _
    unfold Class.runFinal
    rw [e1]
    obtain ⟨vs, a⟩ := x
    match a, e2 with
    | .a8 b :: _, e2 => cases e2; rfl
  | cons d parts ih =>
    obtain ⟨s', e, hs'⟩ := ref.update () msg s d hs (hp d List.mem_cons_self)
    obtain ⟨x, e1, rest', hr', rfl⟩ := hu d s s' rest (hp d List.mem_cons_self) (hN d List.mem_cons_self) (hA msg s hs).1 (hA msg s hs).2 hr e
    have := ih (fun d hd => hp d (List.mem_cons_of_mem _ hd)) (fun d hd => hN d (List.mem_cons_of_mem _ hd)) hs' hr'
    rw [List.flatten_cons, ← List.append_assoc, ← this]
    unfold Class.absorb
    rw [List.foldlM_cons]
    have e2 : c.runUpdate N ⟨.u64 (BitVec.ofNat 64 s.pos), .u64 s.total, .a8 s.m :: rest⟩ d = some ⟨.u64 (BitVec.ofNat 64 s'.pos), .u64 s'.total, .a8 s'.m :: rest'⟩ := by
      unfold Class.runUpdate
      rw [e1]
    rw [e2]
    rfl

theorem buffered_pos {step : Nat → Bytes → σ → σ} {h0 : σ} {msg : Bytes} {s : Blk σ} (hb : 0 < bs) (h : Buffered bs 0 ml step h0 msg s) : s.m.length = ml ∧ s.pos ≤ bs := by
  refine ⟨h.mlen, ?_⟩
  have := h.pos
  rw [Nat.sub_zero, Proofs.mod_eq_sub_div] at this
  rw [this]
  exact Nat.le_of_lt (Nat.mod_lt _ hb)

theorem md5_hash {parts : List Bytes} (hp : ∀ d ∈ parts, d.length < 2 ^ 63) (hN : ∀ d ∈ parts, d.length < N) (h1 : 1 < N) {out : Bytes} (ho : out.length = 16) {p t : BitVec 64} {m : Bytes}
    {H : List (BitVec 32)} (hm : m.length = 64) (hH : H.length = 4) : md5.hash N parts out ⟨.u64 p, .u64 t, [.a8 m, .a32 H]⟩ = some (Spec.Md5.md5.digest () parts.flatten) := by
  have e : md5.runInit N ⟨.u64 p, .u64 t, [.a8 m, .a32 H]⟩ = some ⟨.u64 0, .u64 0, [.a8 m, .a32 [0x67452301, 0xefcdab89, 0x98badcfe, 0x10325476]]⟩ := by
    unfold Class.runInit
    rw [show exec N _ md5.init ⟨[.u64 p, .u64 t], .a8 [] :: [.a8 m, .a32 H]⟩ = _ from Md5.init_run hH]
    rfl
  unfold Class.hash
  rw [e]
  obtain ⟨s', e', r⟩ := Proofs.Md5.init_ok ⟨H, m, 0, 0⟩ hm
  obtain rfl := Except.ok.inj e'
  exact absorb_source (N := N) (bs := 64) (c := md5) Proofs.Md5.refines (fun _ _ h => buffered_pos (by decide) h)
    (fun data s s' rest h63 hN hm hp hR h => Md5.update_run (by omega) hN h1 hm hp hR h)
    (fun out out' b msg s rest _ hm hR h ho => Md5.final_run h1 hm hR h ho) hp hN ho r ⟨rfl, rfl⟩

theorem sha1_hash {parts : List Bytes} (hp : ∀ d ∈ parts, d.length < 2 ^ 63) (hN : ∀ d ∈ parts, d.length < N) (h1 : 80 < N) {out : Bytes} (ho : out.length = 20) {p t : BitVec 64} {m : Bytes}
    {H M W : List (BitVec 32)} (hm : m.length = 64) (hH : H.length = 5) (hM : M.length = 16) (hW : W.length = 80) :
    sha1.hash N parts out ⟨.u64 p, .u64 t, [.a8 m, .a32 H, .a32 M, .a32 W]⟩ = some (Spec.Sha1.sha1.digest () parts.flatten) := by
  have e : sha1.runInit N ⟨.u64 p, .u64 t, [.a8 m, .a32 H, .a32 M, .a32 W]⟩ =
      some ⟨.u64 0, .u64 0, [.a8 m, .a32 [0x67452301, 0xefcdab89, 0x98badcfe, 0x10325476, 0xc3d2e1f0], .a32 M, .a32 W]⟩ := by
    unfold Class.runInit
    rw [show exec N _ sha1.init ⟨[.u64 p, .u64 t], .a8 [] :: [.a8 m, .a32 H, .a32 M, .a32 W]⟩ = _ from Sha1.init_run hH]
    rfl
  unfold Class.hash
  rw [e]
  obtain ⟨s', e', r⟩ := Proofs.Sha1.init_ok ⟨H, m, 0, 0⟩ hm
  obtain rfl := Except.ok.inj e'
  exact absorb_source (N := N) (bs := 64) (c := sha1) Proofs.Sha1.refines (fun _ _ h => buffered_pos (by decide) h)
    (fun data s s' rest h63 hN hm hp hR h => Sha1.update_run (by omega) hN h1 hm hp hR h)
    (fun out out' b msg s rest _ hm hR h ho => Sha1.final_run h1 hm hR h ho) hp hN ho r ⟨rfl, M, W, hM, hW, rfl⟩

theorem abs_hs {w : Nat} {v : Spec.Sha2.Variant w} {iv : Spec.Sha2.H8 w} {hs : Nat} {msg : Bytes} {s : Blk (Model.Sha2.St w)} (h : Proofs.Sha2.Abs v iv hs msg s) : s.h.hs = hs := by
  rw [Buffered.h h, Proofs.Sha2.fold_hs]

theorem sha224_hash {parts : List Bytes} (hp : ∀ d ∈ parts, d.length < 2 ^ 63) (hN : ∀ d ∈ parts, d.length < N) (h1 : 80 < N) {out : Bytes} (ho : out.length = 28) {p t : BitVec 64} {m : Bytes}
    {H M W : List (BitVec 32)} (hm : m.length = 64) (hH : H.length = 8) (hM : M.length = 16) (hW : W.length = 64) :
    sha224.hash N parts out ⟨.u64 p, .u64 t, [.a8 m, .a32 H, .a32 M, .a32 W]⟩ = some (Spec.Sha2.sha224.digest () parts.flatten) := by
  have e : sha224.runInit N ⟨.u64 p, .u64 t, [.a8 m, .a32 H, .a32 M, .a32 W]⟩ = some ⟨.u64 0, .u64 0,
      [.a8 m, .a32 [0xc1059ed8, 0x367cd507, 0x3070dd17, 0xf70e5939, 0xffc00b31, 0x68581511, 0x64f98fa7, 0xbefa4fa4], .a32 M, .a32 W]⟩ := by
    unfold Class.runInit
    rw [show exec N _ sha224.init ⟨[.u64 p, .u64 t], .a8 [] :: [.a8 m, .a32 H, .a32 M, .a32 W]⟩ = _ from Sha256.init224_run hH]
    rfl
  unfold Class.hash
  rw [e]
  have r : Proofs.Sha2.Abs Spec.Sha2.v256 Spec.Sha2.iv224 224 []
      ⟨⟨[0xc1059ed8, 0x367cd507, 0x3070dd17, 0xf70e5939, 0xffc00b31, 0x68581511, 0x64f98fa7, 0xbefa4fa4], 224⟩, m, 0, 0⟩ :=
    Buffered.start _ _ hm rfl rfl (by rw [Proofs.Sha2.iv224_eq])
  exact absorb_source (N := N) (bs := 64) (c := sha224) Proofs.Sha2.refines224 (fun _ _ h => buffered_pos (by decide) h)
    (fun data s s' rest h63 hN hm hp hR h => Sha256.update_run (by omega) hN h1 hm hp hR h)
    (fun out out' b msg s rest ha hm hR h ho => by
      have hs := abs_hs ha
      have := Sha256.final_run h1 hm hR (by omega) h ho
      rw [hs] at this
      exact this) hp hN ho r ⟨rfl, M, W, hM, hW, rfl⟩

theorem sha256_hash {parts : List Bytes} (hp : ∀ d ∈ parts, d.length < 2 ^ 63) (hN : ∀ d ∈ parts, d.length < N) (h1 : 80 < N) {out : Bytes} (ho : out.length = 32) {p t : BitVec 64} {m : Bytes}
    {H M W : List (BitVec 32)} (hm : m.length = 64) (hH : H.length = 8) (hM : M.length = 16) (hW : W.length = 64) :
    sha256.hash N parts out ⟨.u64 p, .u64 t, [.a8 m, .a32 H, .a32 M, .a32 W]⟩ = some (Spec.Sha2.sha256.digest () parts.flatten) := by
  have e : sha256.runInit N ⟨.u64 p, .u64 t, [.a8 m, .a32 H, .a32 M, .a32 W]⟩ = some ⟨.u64 0, .u64 0,
      [.a8 m, .a32 [0x6a09e667, 0xbb67ae85, 0x3c6ef372, 0xa54ff53a, 0x510e527f, 0x9b05688c, 0x1f83d9ab, 0x5be0cd19], .a32 M, .a32 W]⟩ := by
    unfold Class.runInit
    rw [show exec N _ sha256.init ⟨[.u64 p, .u64 t], .a8 [] :: [.a8 m, .a32 H, .a32 M, .a32 W]⟩ = _ from Sha256.init256_run hH]
    rfl
  unfold Class.hash
  rw [e]
  have r : Proofs.Sha2.Abs Spec.Sha2.v256 Spec.Sha2.iv256 256 []
      ⟨⟨[0x6a09e667, 0xbb67ae85, 0x3c6ef372, 0xa54ff53a, 0x510e527f, 0x9b05688c, 0x1f83d9ab, 0x5be0cd19], 256⟩, m, 0, 0⟩ :=
    Buffered.start _ _ hm rfl rfl (by rw [Proofs.Sha2.iv256_eq])
  exact absorb_source (N := N) (bs := 64) (c := sha256) Proofs.Sha2.refines256 (fun _ _ h => buffered_pos (by decide) h)
    (fun data s s' rest h63 hN hm hp hR h => Sha256.update_run (by omega) hN h1 hm hp hR h)
    (fun out out' b msg s rest ha hm hR h ho => by
      have hs := abs_hs ha
      have := Sha256.final_run h1 hm hR (by omega) h ho
      rw [hs] at this
      exact this) hp hN ho r ⟨rfl, M, W, hM, hW, rfl⟩

theorem sha512_hash {parts : List Bytes} (hp : ∀ d ∈ parts, d.length < 2 ^ 63) (hN : ∀ d ∈ parts, d.length < N) (h1 : 80 < N) {hs : Nat} (hhs : hs ≤ 512) (hpos : 0 < hs / 8) {out : Bytes}
    (ho : out.length = hs / 8) (iv : Spec.Sha2.H8 64) {m : Bytes} {M W : List (BitVec 64)} (hm : m.length = 128) (hM : M.length = 16) (hW : W.length = 80) :
    (sha512 hs).absorb N parts out ⟨.u64 0, .u64 0, [.a8 m, .a64 (Proofs.Sha2.arr iv), .a64 M, .a64 W]⟩ =
      some ((Spec.Sha2.coreWith (bits64 parts.flatten.length) Spec.Sha2.v512 iv parts.flatten).bytes.take (hs / 8)) := by
  have r : Proofs.Sha2.Abs Spec.Sha2.v512 iv hs [] ⟨⟨Proofs.Sha2.arr iv, hs⟩, m, 0, 0⟩ := Buffered.start _ _ hm rfl rfl rfl
  exact absorb_source (N := N) (bs := 128) (c := sha512 hs)
    (Proofs.Sha2.refines Proofs.Sha2.u64_ok iv hs hhs hpos
      { Model.Sha2.provider512 with init := fun s => .ok { s with h := { s.h with H := Proofs.Sha2.arr iv }, pos := 0, total := 0 } } rfl rfl rfl rfl
      fun s hm hh => ⟨_, rfl, Buffered.start _ _ hm rfl rfl (by rw [← hh])⟩) (fun _ _ h => buffered_pos (by decide) h)
    (fun data s s' rest h63 hN hm hp hR h => Sha512.update_run (by omega) hN h1 hm hp hR h)
    (fun out out' b msg s rest ha hm hR h ho => by
      have hs := abs_hs ha
      have := Sha512.final_run h1 hm hR (by omega) h ho
      rw [hs] at this
      exact this) hp hN ho r ⟨rfl, M, W, hM, hW, rfl⟩

end Digestpp.Cpp
