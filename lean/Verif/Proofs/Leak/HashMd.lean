import Verif.Proofs.Leak.HashTwin
import Verif.Proofs.Jh

/-! MD5, SHA-1, SHA-2, SM3, JH: the trace of a whole computation. -/

namespace Digestpp.Proofs.Leak
open Model Properties Proofs.Pointers Proofs.Locals

theorem length_stores32 (l : List (BitVec 32)) : (stores32 l).length = 4 * l.length := by
  induction l with
  | nil => rfl
  | cons x l ih => show (bytes32 x ++ stores32 l).length = _; rw [List.length_append, ih]; show 4 + _ = 4 * (l.length + 1); omega

theorem length_stores64 (l : List (BitVec 64)) : (stores64 l).length = 8 * l.length := by
  induction l with
  | nil => rfl
  | cons x l ih => show (bytes64 x ++ stores64 l).length = _; rw [List.length_append, ih]; show 8 + _ = 8 * (l.length + 1); omega

theorem readBytes_total {src : Bytes} {off n : Nat} (h : off + n ≤ src.length) : ∃ b, Model.readBytes src off n = .ok b :=
  let ⟨b, e, _⟩ := readBytes_safe src off n h
  ⟨b, e⟩

/-! ### MD5 -/

theorem md5_keeps : SafeTransform 64 64 (fun h : List (BitVec 32) => h.length = 4) Md5.transform :=
  safe_blocks (fun _ _ b h => Md5.compress b h) (fun _ _ b h _ => by
    obtain ⟨h', e⟩ := Md5.compress_total b h
    refine ⟨h', e, ?_⟩
    obtain ⟨_, _, e⟩ := M.bind_eq_ok e
    obtain ⟨_, _, e⟩ := M.bind_eq_ok e
    obtain ⟨_, _, e⟩ := M.bind_eq_ok e
    obtain ⟨_, _, e⟩ := M.bind_eq_ok e
    cases Except.ok.inj e
    rfl) fun _ _ _ _ => rfl

theorem md5_twin : TwinTransform 64 64 (fun h : List (BitVec 32) => h.length = 4) (fun _ : Unit => True) Leak.Md5.callback Md5.transform :=
  .of md5_keeps fun n =>
    let ⟨tr, h⟩ := md5_trace n
    ⟨tr, fun k d s _ hd hi => h ⟨k, d, s⟩ ⟨hd, hi⟩⟩

/-! ### SHA-1 -/

theorem sha1_keeps : SafeTransform 64 64 (fun h : List (BitVec 32) => h.length = 5) Sha1.transform :=
  safe_blocks (fun _ _ b h => Sha1.compress b h) (fun _ _ _ _ _ => ⟨_, rfl, rfl⟩) fun _ _ _ _ => rfl

theorem sha1_twin : TwinTransform 64 64 (fun h : List (BitVec 32) => h.length = 5) (Each Locals.Sha1.Stack.Sized) Leak.Sha1.transform Sha1.transform :=
  .of sha1_keeps fun n =>
    let ⟨tr, h⟩ := sha1_trace n
    ⟨tr, fun k d s hk hd hi => h ⟨k, d, s⟩ ⟨hk, hd, hi⟩⟩

/-! ### SM3 -/

theorem sm3_keeps : SafeTransform 64 64 (fun h : List (BitVec 32) => h.length = 8) (Sm3.transform rotlMasked) := by
  have r : ∀ k ff gg W W2 v t, Total (Sm3.round rotlMasked k ff gg W W2 v t) := fun _ _ _ _ _ _ _ => Total.bind ⟨_, rfl⟩ fun _ => .pure _
  refine safe_blocks (fun _ _ b h => Sm3.compress rotlMasked b h) (fun _ _ b h _ => ?_) fun _ _ _ _ => rfl
  have t : Total (Sm3.compress rotlMasked b h) :=
    (Total.foldlM _ (fun _ _ _ => r _ _ _ _ _ _ _) _).bind fun _ => (Total.foldlM _ (fun _ _ _ => r _ _ _ _ _ _ _) _).bind fun _ => .pure _
  obtain ⟨h', e⟩ := t
  refine ⟨h', e, ?_⟩
  obtain ⟨_, _, e⟩ := M.bind_eq_ok e
  obtain ⟨_, _, e⟩ := M.bind_eq_ok e
  cases Except.ok.inj e
  rfl

theorem sm3_twin : TwinTransform 64 64 (fun h : List (BitVec 32) => h.length = 8) (Each Locals.Sm3.Stack.Sized) (Leak.Sm3.transform rotlMasked) (Sm3.transform rotlMasked) :=
  .of sm3_keeps fun n =>
    let ⟨tr, h⟩ := sm3_trace n
    ⟨tr, fun k d s hk hd hi => h ⟨k, d, s⟩ ⟨hk, hd, hi⟩⟩

/-! ### SHA-2 -/

theorem sha2_keeps {w : Nat} (T : Sha2.Word w) (hs ms : Nat) : SafeTransform (T.N / 4) ms (fun h : Sha2.St w => h.H.length = 8 ∧ h.hs = hs) (Sha2.transform T) :=
  safe_blocks (fun _ _ b h => pure { h with H := Sha2.compress T b h.H }) (fun _ _ _ _ hi => ⟨_, rfl, rfl, hi.2⟩) fun _ _ _ _ => rfl

theorem sha256_twin (hs : Nat) : TwinTransform 64 64 (fun h : Sha2.St 32 => h.H.length = 8 ∧ h.hs = hs) (Each (Locals.Sha2.Stack.Sized Sha2.u32)) (Leak.Sha2.transform Sha2.u32 Leak.rd32)
    (Sha2.transform Sha2.u32) :=
  .of (sha2_keeps Sha2.u32 hs 64) fun n =>
    let ⟨tr, h⟩ := sha256_trace n
    ⟨tr, fun k d s hk hd hi => h ⟨k, d, s⟩ ⟨hk, hd, hi.1⟩⟩

theorem sha512_twin (hs : Nat) : TwinTransform 128 128 (fun h : Sha2.St 64 => h.H.length = 8 ∧ h.hs = hs) (Each (Locals.Sha2.Stack.Sized Sha2.u64)) (Leak.Sha2.transform Sha2.u64 Leak.rd64)
    (Sha2.transform Sha2.u64) :=
  .of (sha2_keeps Sha2.u64 hs 128) fun n =>
    let ⟨tr, h⟩ := sha512_trace n
    ⟨tr, fun k d s hk hd hi => h ⟨k, d, s⟩ ⟨hk, hd, hi.1⟩⟩

/-! ### JH -/

theorem jh_keeps (hs : Nat) : SafeTransform 64 64 (fun h : Jh.St => h.H.length = 16 ∧ h.hs = hs) Jh.transform := by
  refine safe_blocks (fun _ _ b h => pure { h with H := Jh.compress h.H (loads64 8 b) }) (fun _ _ b h hi => ⟨_, rfl, ?_, hi.2⟩) fun _ _ _ _ => rfl
  rfl

theorem jh_twin (hs : Nat) : TwinTransform 64 64 (fun h : Jh.St => h.H.length = 16 ∧ h.hs = hs) (fun _ : Unit => True) Leak.Jh.callback Jh.transform :=
  .of (jh_keeps hs) fun n =>
    let ⟨tr, h⟩ := jh_trace n
    ⟨tr, fun k d s _ hd hi => h ⟨k, d, s⟩ ⟨hd, hi.1⟩⟩

end Digestpp.Proofs.Leak
