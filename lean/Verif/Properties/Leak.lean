import Verif.Proofs.Leak.Ascon
import Verif.Proofs.Leak.Blake
import Verif.Proofs.Leak.Esch
import Verif.Proofs.Leak.Jh
import Verif.Proofs.Leak.Lsh
import Verif.Proofs.Leak.Md5
import Verif.Proofs.Leak.Reveal2
import Verif.Proofs.Leak.Sha1
import Verif.Proofs.Leak.Sha2
import Verif.Proofs.Leak.Sha3
import Verif.Proofs.Leak.Skein
import Verif.Properties.Locals

/-! C66: what someone learns who sees the indices of all array accesses and the outcomes of all branches in the transformation functions. `Model.Leak` transcribes the bodies of these
functions once more, with a trace of these events. For the algorithms without tables that are indexed by data the trace is the same for all data and all chaining values. For the
others it determines the data and the chaining value. -/

namespace Digestpp.Properties
open Model

/-- A call of a transformation function: what its local arrays contain at first, the data, and the object. -/
structure Call (κ σ : Type) where
  locals : κ
  data : Bytes
  obj : σ

/-- There is one trace that all calls with `ok` leave. The result of the call is the one of the model. -/
def SameTrace {ι α : Type} (ok : ι → Prop) (run : ι → L α) (model : ι → M α) : Prop :=
  ∃ tr : List Ev, ∀ i, ok i → ∃ a, model i = .ok a ∧ run i = .ok (a, tr)

/-- `secret` can be computed from the trace. -/
def Tells {ι α β : Type} (ok : ι → Prop) (run : ι → L α) (model : ι → M α) (secret : ι → β) : Prop :=
  ∃ find : List Ev → β, ∀ i, ok i → ∃ a tr, model i = .ok a ∧ run i = .ok (a, tr) ∧ find tr = secret i

theorem run_of_erase {α : Type} {x : L α} {a : α} (h : L.erase x = .ok a) : ∃ tr, x = .ok (a, tr) := by
  cases x with
  | error e => cases h
  | ok v =>
    obtain ⟨b, t⟩ := v
    cases Except.ok.inj h
    exact ⟨t, rfl⟩

theorem SameTrace.intro {ι α : Type} {ok : ι → Prop} {run : ι → L α} {model : ι → M α} (h : ∀ i, ok i → ∃ a, model i = .ok a ∧ L.erase (run i) = .ok a)
    (hr : ∀ i j, ok i → ok j → Proofs.Leak.Agree Proofs.Leak.Any (run i) (run j)) : SameTrace ok run model := by
  by_cases hi : ∃ i, ok i
  · obtain ⟨i, hi⟩ := hi
    obtain ⟨a, _, e⟩ := h i hi
    obtain ⟨tr, e⟩ := run_of_erase e
    refine ⟨tr, fun j hj => ?_⟩
    obtain ⟨b, m, e'⟩ := h j hj
    obtain ⟨tr', e'⟩ := run_of_erase e'
    refine ⟨b, m, ?_⟩
    rw [(hr i j hi hj a tr b tr' e e').1]
    exact e'
  · exact ⟨[], fun j hj => absurd ⟨j, hj⟩ hi⟩

theorem Tells.intro {ι α β : Type} [Inhabited β] {ok : ι → Prop} {run : ι → L α} {model : ι → M α} {secret : ι → β}
    (h : ∀ i, ok i → ∃ a, model i = .ok a ∧ L.erase (run i) = .ok a) (hr : ∀ i j, ok i → ok j → Proofs.Leak.Reveals (fun _ _ => secret i = secret j) (run i) (run j)) :
    Tells ok run model secret := by
  classical
  refine ⟨fun tr => if e : ∃ i, ok i ∧ ∃ a, run i = .ok (a, tr) then secret e.choose else default, fun i hi => ?_⟩
  obtain ⟨a, m, e⟩ := h i hi
  obtain ⟨tr, e⟩ := run_of_erase e
  refine ⟨a, tr, m, e, ?_⟩
  have ex : ∃ i, ok i ∧ ∃ a, run i = .ok (a, tr) := ⟨i, hi, a, e⟩
  refine (dif_pos ex).trans ?_
  obtain ⟨hj, b, eb⟩ := ex.choose_spec
  exact (hr _ i hj hi b tr a tr eb e).2 rfl

/-- The same call with another result of an earlier theorem (C58). -/
theorem erased {κ α : Type} {sized : κ → Prop} {f : κ → M α} {model : M α} (h : LocalsOk sized f model) {x : L α} {k : κ} (hk : sized k) (e : L.erase x = f k) :
    ∃ a, model = .ok a ∧ L.erase x = .ok a := by
  obtain ⟨a, m, hf⟩ := h
  exact ⟨a, m, e.trans (hf k hk)⟩

/-! ### The same trace for all data -/

/-- **C66**, MD5. -/
theorem md5_trace (n : Nat) : SameTrace (fun c : Call Unit (Blk (List (BitVec 32))) => n * 64 ≤ c.data.length ∧ c.obj.h.length = 4)
    (fun c => Leak.Md5.transform c.data n c.obj) (fun c => Md5.transform c.data n c.obj) :=
  .intro (fun c ⟨h1, h2⟩ => erased (md5_locals c.data n h1 c.obj h2) (k := ()) trivial (Proofs.Leak.Md5.transform_erase _ _ _))
    fun _ _ _ _ => Proofs.Leak.Md5.transform_agree _ _ _ _ _

/-- The trace is not empty: it begins with the number of blocks. -/
theorem begins_with_loop {σ τ : Type} {lo hi : Nat} {f : Nat → σ → L σ} {s : σ} {g : σ → L τ} {a : τ} {tr : List Ev} (h : (Leak.loop lo hi f s >>= g) = .ok (a, tr)) :
    ∃ u, tr = .loop lo hi :: u := by
  obtain ⟨_, t1, t2, e, _, rfl⟩ := Proofs.Leak.bind_eq_ok h
  obtain ⟨_, u1, u2, e', _, rfl⟩ := Proofs.Leak.bind_eq_ok e
  cases Except.ok.inj e'
  exact ⟨_, rfl⟩

example (s : Blk (List (BitVec 32))) (hs : s.h.length = 4) (data : Bytes) (hd : data.length = 200) :
    ∃ tr s' a, Leak.Md5.transform data 3 s = .ok (s', .loop 0 3 :: tr) ∧ Leak.Md5.transform (List.replicate 200 7) 3 s = .ok (a, .loop 0 3 :: tr) := by
  obtain ⟨tr, h⟩ := md5_trace 3
  obtain ⟨a, _, ha⟩ := h ⟨(), data, s⟩ ⟨by show 3 * 64 ≤ data.length; omega, hs⟩
  obtain ⟨b, _, hb⟩ := h ⟨(), List.replicate 200 7, s⟩ ⟨by show 3 * 64 ≤ (List.replicate 200 _).length; rw [List.length_replicate]; decide, hs⟩
  obtain ⟨u, rfl⟩ := begins_with_loop (show (Leak.loop 0 3 _ s.h >>= _) = _ from ha)
  exact ⟨u, a, b, ha, hb⟩

/-- **C66**, SHA-1. -/
theorem sha1_trace (n : Nat) : SameTrace (fun c : Call (Nat → Locals.Sha1.Stack) (Blk (List (BitVec 32))) => Each Locals.Sha1.Stack.Sized c.locals ∧ n * 64 ≤ c.data.length ∧ c.obj.h.length = 5)
    (fun c => Leak.Sha1.transform c.locals c.data n c.obj) (fun c => Sha1.transform c.data n c.obj) :=
  .intro (fun c ⟨h0, h1, h2⟩ => erased (sha1_locals c.data n h1 c.obj h2) h0 (Proofs.Leak.Sha1.transform_erase _ _ _ _))
    fun _ _ _ _ => Proofs.Leak.Sha1.transform_agree _ _ _ _ _ _ _

/-- **C66**, SHA-224 and SHA-256. -/
theorem sha256_trace (n : Nat) :
    SameTrace (fun c : Call (Nat → Locals.Sha2.Stack 32) (Blk (Sha2.St 32)) => Each (Locals.Sha2.Stack.Sized Sha2.u32) c.locals ∧ n * 64 ≤ c.data.length ∧ c.obj.h.H.length = 8)
      (fun c => Leak.Sha2.transform Sha2.u32 Leak.rd32 c.locals c.data n c.obj) (fun c => Sha2.transform Sha2.u32 c.data n c.obj) :=
  .intro (fun c ⟨h0, h1, h2⟩ => erased (sha256_locals c.data n h1 c.obj h2) h0 (Proofs.Leak.Sha2.transform_erase _ _ _ _ _ _ _ Proofs.Leak.erase_rd32))
    fun _ _ _ _ => Proofs.Leak.Sha2.transform_agree _ _ _ _ _ _ _ _ _ fun _ _ _ => Proofs.Leak.Agree.rd32

/-- **C66**, SHA-384, SHA-512 and SHA-512/t. -/
theorem sha512_trace (n : Nat) :
    SameTrace (fun c : Call (Nat → Locals.Sha2.Stack 64) (Blk (Sha2.St 64)) => Each (Locals.Sha2.Stack.Sized Sha2.u64) c.locals ∧ n * 128 ≤ c.data.length ∧ c.obj.h.H.length = 8)
      (fun c => Leak.Sha2.transform Sha2.u64 Leak.rd64 c.locals c.data n c.obj) (fun c => Sha2.transform Sha2.u64 c.data n c.obj) :=
  .intro (fun c ⟨h0, h1, h2⟩ => erased (sha512_locals c.data n h1 c.obj h2) h0 (Proofs.Leak.Sha2.transform_erase _ _ _ _ _ _ _ Proofs.Leak.erase_rd64))
    fun _ _ _ _ => Proofs.Leak.Sha2.transform_agree _ _ _ _ _ _ _ _ _ fun _ _ _ => Proofs.Leak.Agree.rd64

/-- A key in the chaining value (as after the first block of HMAC) does not change the trace. -/
example (k : Nat → Locals.Sha2.Stack 32) (hk : Each (Locals.Sha2.Stack.Sized Sha2.u32) k) (s s' : Blk (Sha2.St 32)) (hs : s.h.H.length = 8) (hs' : s'.h.H.length = 8) (x y : BitVec 8) :
    ∃ tr a b, Leak.Sha2.transform Sha2.u32 Leak.rd32 k (List.replicate 64 x) 1 s = .ok (a, tr) ∧
      Leak.Sha2.transform Sha2.u32 Leak.rd32 k (List.replicate 64 y) 1 s' = .ok (b, tr) := by
  obtain ⟨tr, h⟩ := sha256_trace 1
  obtain ⟨a, _, ha⟩ := h ⟨k, List.replicate 64 x, s⟩ ⟨hk, by show 1 * 64 ≤ (List.replicate 64 _).length; rw [List.length_replicate], hs⟩
  obtain ⟨b, _, hb⟩ := h ⟨k, List.replicate 64 y, s'⟩ ⟨hk, by show 1 * 64 ≤ (List.replicate 64 _).length; rw [List.length_replicate], hs'⟩
  exact ⟨tr, a, b, ha, hb⟩

/-- **C66**, SM3. -/
theorem sm3_trace (n : Nat) : SameTrace (fun c : Call (Nat → Locals.Sm3.Stack) (Blk (List (BitVec 32))) => Each Locals.Sm3.Stack.Sized c.locals ∧ n * 64 ≤ c.data.length ∧ c.obj.h.length = 8)
    (fun c => Leak.Sm3.transform rotlMasked c.locals c.data n c.obj) (fun c => Sm3.transform rotlMasked c.data n c.obj) :=
  .intro (fun c ⟨h0, h1, h2⟩ => erased (sm3_locals c.data n h1 c.obj h2) h0 (Proofs.Leak.Sm3.transform_erase _ _ _ _ _))
    fun _ _ _ _ => Proofs.Leak.Sm3.transform_agree _ _ _ _ _ _ _ _

/-- **C66**, the Keccak permutation (which SHA-3, SHAKE, cSHAKE, KMAC, K12 and M14 also call when squeezing). -/
theorem keccak_permute_trace (R : Nat) (hR : R ≤ 24) : SameTrace (fun c : Call (Nat → Locals.Sha3.Stack) (List (BitVec 64)) => Each Locals.Sha3.Stack.Sized c.locals ∧ c.obj.length = 25)
    (fun c => Leak.Sha3.permute c.locals R c.obj) (fun c => .ok (Sha3.permute R c.obj)) :=
  .intro (fun c ⟨h0, h1⟩ => erased (keccak_permute_locals R hR c.obj h1) h0 (Proofs.Leak.Sha3.permute_erase _ _ _))
    fun _ _ _ _ => Proofs.Leak.Sha3.permute_agree _ _ _ _ _

/-- **C66**, absorbing of whole blocks with Keccak. -/
theorem keccak_trace (R rate n : Nat) (hR : R ≤ 24) (hrate : rate ≤ 1600) :
    SameTrace (fun c : Call (Nat → Nat → Locals.Sha3.Stack) (List (BitVec 64)) => Each (Each Locals.Sha3.Stack.Sized) c.locals ∧ n * (rate / 8) ≤ c.data.length ∧ c.obj.length = 25)
      (fun c => Leak.Sha3.transform c.locals R rate c.data n c.obj) (fun c => Sha3.transform R rate c.data n c.obj) :=
  .intro (fun c ⟨h0, h1, h2⟩ => erased (keccak_locals R rate hR hrate c.data n h1 c.obj h2) h0 (Proofs.Leak.Sha3.transform_erase _ _ _ _ _ _))
    fun _ _ _ _ => Proofs.Leak.Sha3.transform_agree _ _ _ _ _ _ _ _ _

/-- **C66**, BLAKE: for each hash size. -/
theorem blake_trace (hs n : Nat) (padding final : Bool) :
    SameTrace (fun c : Call ((Nat → Locals.Blake.Stack 64) × (Nat → Locals.Blake.Stack 32)) (Blk Blake.St) => (Each Locals.Blake.Stack.Sized c.locals.1 ∧ Each Locals.Blake.Stack.Sized c.locals.2) ∧
        n * Blake.blockBytes hs ≤ c.data.length ∧ c.obj.h.hs = hs ∧ c.obj.h.H512.length = 12 ∧ c.obj.h.H256.length = 12)
      (fun c => Leak.Blake.transform c.locals.1 c.locals.2 padding final c.data n c.obj) (fun c => Blake.transform padding final c.data n c.obj) :=
  .intro (fun c ⟨h0, h1, e, h5, h2⟩ => erased (blake_locals padding final c.data n c.obj (by rw [e]; exact h1) h5 h2) h0 (Proofs.Leak.Blake.transform_erase _ _ _ _ _ _ _))
    fun _ _ h h' => Proofs.Leak.Blake.transform_agree _ _ _ _ _ _ _ _ _ _ _ (h.2.2.1.trans h'.2.2.1.symm)

/-- **C66**, BLAKE2s. -/
theorem blake2s_trace (n : Nat) (padding : Bool) :
    SameTrace (fun c : Call (Nat → Locals.Blake.Stack 32) (Blk (Blake2.St 32)) => Each Locals.Blake.Stack.Sized c.locals ∧ n * 64 ≤ c.data.length ∧ c.obj.h.H.length = 8)
      (fun c => Leak.Blake2.transform Blake2.u32 Leak.rd32 c.locals padding c.data n c.obj) (fun c => Blake2.transform Blake2.u32 padding c.data n c.obj) :=
  .intro (fun c ⟨h0, h1, h2⟩ => erased (blake2s_locals padding c.data n h1 c.obj h2) h0 (Proofs.Leak.Blake2.transform_erase _ _ _ _ _ _ _ _ Proofs.Leak.erase_rd32))
    fun _ _ _ _ => Proofs.Leak.Blake2.transform_agree _ _ _ _ _ _ _ _ _ _ fun _ _ _ => Proofs.Leak.Agree.rd32

/-- **C66**, BLAKE2b. -/
theorem blake2b_trace (n : Nat) (padding : Bool) :
    SameTrace (fun c : Call (Nat → Locals.Blake.Stack 64) (Blk (Blake2.St 64)) => Each Locals.Blake.Stack.Sized c.locals ∧ n * 128 ≤ c.data.length ∧ c.obj.h.H.length = 8)
      (fun c => Leak.Blake2.transform Blake2.u64 Leak.rd64 c.locals padding c.data n c.obj) (fun c => Blake2.transform Blake2.u64 padding c.data n c.obj) :=
  .intro (fun c ⟨h0, h1, h2⟩ => erased (blake2b_locals padding c.data n h1 c.obj h2) h0 (Proofs.Leak.Blake2.transform_erase _ _ _ _ _ _ _ _ Proofs.Leak.erase_rd64))
    fun _ _ _ _ => Proofs.Leak.Blake2.transform_agree _ _ _ _ _ _ _ _ _ _ fun _ _ _ => Proofs.Leak.Agree.rd64

/-- **C66**, Skein: the trace depends on the state size, the number of blocks and the number of bytes. -/
theorem skein_trace (F : Skein.Fns) (hF : F = Skein.f4 ∨ F = Skein.f8 ∨ F = Skein.f16) (reallen n : Nat) :
    SameTrace (fun c : Call ((Nat → Locals.Skein.Stack) × List (BitVec 64) × List (BitVec 64)) (Blk Skein.St) =>
        (Each (Locals.Skein.Stack.Sized F) c.locals.1 ∧ c.locals.2.1.length = F.nw + 1 ∧ c.locals.2.2.length = 3) ∧ n * (8 * F.nw) ≤ c.data.length ∧ c.obj.h.H.length = F.nw)
      (fun c => Leak.Skein.transform F c.locals.1 c.locals.2.1 c.locals.2.2 reallen c.data n c.obj) (fun c => Skein.transform F reallen c.data n c.obj) :=
  .intro (fun c ⟨h0, h1, h2⟩ => erased (skein_locals F hF reallen c.data n h1 c.obj h2) h0 (Proofs.Leak.Skein.transform_erase _ _ _ _ _ _ _ _))
    fun _ _ _ _ => Proofs.Leak.Skein.transform_agree _ _ _ _ _ _ _ _ _ _ _ _ _

/-- **C66**, LSH-256. -/
theorem lsh256_trace (n : Nat) : SameTrace (fun c : Call Unit (Blk (Lsh.St 32)) => n * 128 ≤ c.data.length ∧ Locals.Lsh.Sized Lsh.u32 c.obj.h)
    (fun c => Leak.Lsh.transform rotlMasked Lsh.u32 c.data n c.obj) (fun c => Lsh.transform rotlMasked Lsh.u32 c.data n c.obj) :=
  .intro (fun c ⟨h1, h2⟩ => erased (LocalsOk.intro (sized := fun _ : Unit => True) (Proofs.Locals.Lsh.transform_total Lsh.u32 c.data n h1 c.obj)
      fun _ _ => Proofs.Locals.Lsh.transform_eq Proofs.Locals.Lsh.good32 rotlMasked c.data n h1 c.obj h2) (k := ()) trivial (Proofs.Leak.Lsh.transform_erase _ _ _ _ _))
    fun _ _ _ _ => Proofs.Leak.Lsh.transform_agree _ _ _ _ _ _ _

/-- **C66**, LSH-512. -/
theorem lsh512_trace (n : Nat) : SameTrace (fun c : Call Unit (Blk (Lsh.St 64)) => n * 256 ≤ c.data.length ∧ Locals.Lsh.Sized Lsh.u64 c.obj.h)
    (fun c => Leak.Lsh.transform rotlMasked Lsh.u64 c.data n c.obj) (fun c => Lsh.transform rotlMasked Lsh.u64 c.data n c.obj) :=
  .intro (fun c ⟨h1, h2⟩ => erased (LocalsOk.intro (sized := fun _ : Unit => True) (Proofs.Locals.Lsh.transform_total Lsh.u64 c.data n h1 c.obj)
      fun _ _ => Proofs.Locals.Lsh.transform_eq Proofs.Locals.Lsh.good64 rotlMasked c.data n h1 c.obj h2) (k := ()) trivial (Proofs.Leak.Lsh.transform_erase _ _ _ _ _))
    fun _ _ _ _ => Proofs.Leak.Lsh.transform_agree _ _ _ _ _ _ _

/-- **C66**, Esch: for each hash size. -/
theorem esch_trace (hs n : Nat) (lastBlock : Bool) :
    SameTrace (fun c : Call (Nat → List (BitVec 32)) (Blk Esch.St) => (Each fun Mw : List (BitVec 32) => Mw.length = 4) c.locals ∧ n * 16 ≤ c.data.length ∧ c.obj.h.hs = hs ∧
        (if hs > 256 then 16 else 12) ≤ c.obj.h.H.length)
      (fun c => Leak.Esch.transform c.locals lastBlock c.data n c.obj) (fun c => Esch.transform lastBlock c.data n c.obj) :=
  .intro (fun c ⟨h0, h1, e, h2⟩ => erased (esch_locals lastBlock c.data n h1 c.obj (by rw [e]; exact h2)) h0 (Proofs.Leak.Esch.transform_erase _ _ _ _ _))
    fun _ _ h h' => Proofs.Leak.Esch.transform_agree _ _ _ _ _ _ _ _ (h.2.2.1.trans h'.2.2.1.symm)

/-- **C66**, Ascon. -/
theorem ascon_trace (n : Nat) : SameTrace (fun c : Call Unit (Blk Ascon.St) => n * 8 ≤ c.data.length ∧ c.obj.h.H.length = 5)
    (fun c => Leak.Ascon.transform c.data n c.obj) (fun c => Ascon.transform c.data n c.obj) :=
  .intro (fun c ⟨h1, h2⟩ => erased (ascon_locals c.data n h1 c.obj h2) (k := ()) trivial (Proofs.Leak.Ascon.transform_erase _ _ _))
    fun _ _ _ _ => Proofs.Leak.Ascon.transform_agree _ _ _ _ _

/-- **C66**, JH. -/
theorem jh_trace (n : Nat) : SameTrace (fun c : Call Unit (Blk Jh.St) => n * 64 ≤ c.data.length ∧ c.obj.h.H.length = 16)
    (fun c => Leak.Jh.transform c.data n c.obj) (fun c => Jh.transform c.data n c.obj) :=
  .intro (fun c ⟨h1, h2⟩ => erased (jh_locals c.data n h1 c.obj h2).1 (k := ()) trivial (Proofs.Leak.Jh.transform_erase _ _ _))
    fun _ _ _ _ => Proofs.Leak.Jh.transform_agree _ _ _ _ _

/-! ### Traces that tell everything -/

/-- **C66**, Grøstl: the trace determines the chaining value and all the data. -/
theorem groestl_tells (hs n : Nat) (hn : 0 < n) :
    Tells (fun c : Call (Nat → Locals.PQ) (Blk Groestl.St) => Each (Locals.PQ.Sized (Groestl.cols hs)) c.locals ∧ n * Groestl.blockBytes hs ≤ c.data.length ∧ c.obj.h.hs = hs ∧ c.obj.h.h.length = 16)
      (fun c => Leak.Groestl.transform c.locals c.data n c.obj) (fun c => Groestl.transform c.data n c.obj)
      (fun c => (c.obj.h.h.take (Groestl.cols hs), c.data.take (n * Groestl.blockBytes hs))) :=
  .intro (fun c ⟨h0, h1, e, h2⟩ => erased (groestl_locals c.data n c.obj (by rw [e]; exact h1) h2) (by rw [e]; exact h0) (Proofs.Leak.Groestl.transform_erase _ _ _ _))
    fun c c' ⟨h0, h1, e, h2⟩ ⟨h0', h1', e', h2'⟩ => by
      subst e
      exact (Proofs.Leak.Groestl.transform_reveals n hn c.locals c'.locals c.data c'.data c.obj c'.obj e'.symm h0 h0' h2 h2' h1 h1').mono fun _ _ h => Prod.ext h.1 h.2

/-- **C66**, Kupyna: the trace determines the chaining value and all the data. -/
theorem kupyna_tells (hs n : Nat) (hn : 0 < n) :
    Tells (fun c : Call (Nat → Locals.PQ) (Blk Kupyna.St) => Each (Locals.PQ.Sized (Kupyna.cols hs)) c.locals ∧ n * Kupyna.blockBytes hs ≤ c.data.length ∧ c.obj.h.hs = hs ∧ c.obj.h.h.length = 16)
      (fun c => Leak.Kupyna.transform c.locals c.data n c.obj) (fun c => Kupyna.transform c.data n c.obj)
      (fun c => (c.obj.h.h.take (Kupyna.cols hs), c.data.take (n * Kupyna.blockBytes hs))) :=
  .intro (fun c ⟨h0, h1, e, h2⟩ => erased (kupyna_locals c.data n c.obj (by rw [e]; exact h1) h2) (by rw [e]; exact h0) (Proofs.Leak.Kupyna.transform_erase _ _ _ _))
    fun c c' ⟨h0, h1, e, h2⟩ ⟨h0', h1', e', h2'⟩ => by
      subst e
      exact (Proofs.Leak.Kupyna.transform_reveals n hn c.locals c'.locals c.data c'.data c.obj c'.obj e'.symm h0 h0' h2 h2' h1 h1').mono fun _ _ h => Prod.ext h.1 h.2

/-- **C66**, Whirlpool: the trace determines the chaining value and all the data. -/
theorem whirlpool_tells (n : Nat) (hn : 0 < n) :
    Tells (fun c : Call (Nat → Locals.Whirlpool.Stack) (Blk (List (BitVec 64))) => Each Locals.Whirlpool.Stack.Sized c.locals ∧ n * 64 ≤ c.data.length ∧ c.obj.h.length = 8)
      (fun c => Leak.Whirlpool.transform c.locals c.data n c.obj) (fun c => Whirlpool.transform c.data n c.obj) (fun c => (c.obj.h, c.data.take (n * 64))) :=
  .intro (fun c ⟨h0, h1, h2⟩ => erased (whirlpool_locals c.data n h1 c.obj h2) h0 (Proofs.Leak.Whirlpool.transform_erase _ _ _ _))
    fun c c' ⟨h0, h1, h2⟩ ⟨h0', h1', h2'⟩ =>
      (Proofs.Leak.Whirlpool.transform_reveals n hn c.locals c'.locals h0 h0' c.data c'.data h1 h1' c.obj c'.obj h2 h2').mono fun _ _ h => Prod.ext h.1 h.2

/-- Other data, another trace. -/
example (k : Nat → Locals.Whirlpool.Stack) (hk : Each Locals.Whirlpool.Stack.Sized k) (s : Blk (List (BitVec 64))) (hs : s.h.length = 8) (x y : BitVec 8) (hxy : x ≠ y) :
    ∃ tr a tr' b, Leak.Whirlpool.transform k (List.replicate 64 x) 1 s = .ok (a, tr) ∧ Leak.Whirlpool.transform k (List.replicate 64 y) 1 s = .ok (b, tr') ∧ tr ≠ tr' := by
  obtain ⟨find, h⟩ := whirlpool_tells 1 (by decide)
  obtain ⟨a, tr, _, ha, fa⟩ := h ⟨k, List.replicate 64 x, s⟩ ⟨hk, by show 1 * 64 ≤ (List.replicate 64 _).length; rw [List.length_replicate], hs⟩
  obtain ⟨b, tr', _, hb, fb⟩ := h ⟨k, List.replicate 64 y, s⟩ ⟨hk, by show 1 * 64 ≤ (List.replicate 64 _).length; rw [List.length_replicate], hs⟩
  refine ⟨tr, a, tr', b, ha, hb, fun e => hxy ?_⟩
  rw [e, fb] at fa
  have := congrArg (fun p : List (BitVec 64) × Bytes => p.2.getD 0 0) fa
  exact this.symm

/-- **C66**, Streebog: for a known number of processed bits, the trace determines the chaining value and all the data. -/
theorem streebog_tells (n : Nat) (hn : 0 < n) (final : Bool) (total : BitVec 64) :
    Tells (fun c : Call (Nat → Locals.Streebog.Stack) (Blk Streebog.St) => Each Locals.Streebog.Stack.Sized c.locals ∧ n * 64 ≤ c.data.length ∧ c.obj.total = total ∧ c.obj.h.h.length = 8 ∧
        c.obj.h.S.length = 8)
      (fun c => Leak.Streebog.transform c.locals final c.data n c.obj) (fun c => Streebog.transform Streebog.addm final c.data n c.obj)
      (fun c => (c.obj.h.h, c.data.take (n * 64))) :=
  .intro (fun c ⟨h0, h1, _, h2⟩ => erased (streebog_locals final c.data n h1 c.obj h2.1 h2.2) h0 (Proofs.Leak.Streebog.transform_erase _ _ _ _ _))
    fun c c' ⟨h0, h1, e, h2⟩ ⟨h0', h1', e', h2'⟩ =>
      (Proofs.Leak.Streebog.transform_reveals n hn final c.locals c'.locals h0 h0' c.data c'.data h1 h1' c.obj c'.obj (e.trans e'.symm) h2 h2').mono fun _ _ h => Prod.ext h.1 h.2

/-- **C66**, ECHO: the trace determines the chaining value and all the data, whatever the salt. -/
theorem echo_tells (hs n : Nat) (hn : 0 < n) :
    Tells (fun c : Call (Nat → List (BitVec 64)) (Blk Echo.St) => (Each fun w : List (BitVec 64) => w.length = 32) c.locals ∧ n * Echo.blockBytes hs ≤ c.data.length ∧ c.obj.h.hs = hs ∧
        Proofs.Locals.Echo.Sized c.obj)
      (fun c => Leak.Echo.transform c.obj.h.hs c.obj.h.salt c.obj.total c.locals (some c.data) n true (Echo.blockBytes c.obj.h.hs * n) (Locals.Echo.whole c.obj))
      (fun c => Echo.transform c.data n c.obj >>= fun s => pure (Locals.Echo.whole s)) (fun c => (c.obj.h.c, c.data.take (n * Echo.blockBytes hs))) :=
  .intro (fun c ⟨h0, h1, e, h2⟩ => erased (echo_locals c.data n c.obj (by rw [e]; exact h1) h2) h0 (Proofs.Leak.Echo.transform_erase _ _ _ _ _ _ _ _ _))
    fun c c' ⟨h0, h1, e, h2⟩ ⟨h0', h1', e', h2'⟩ => by
      subst e
      exact (Proofs.Leak.Echo.transform_reveals n hn c.locals c'.locals h0 h0' c.data c'.data c.obj c'.obj e'.symm h1 h1' h2 h2').mono fun _ _ h => Prod.ext h.1 h.2

end Digestpp.Properties
