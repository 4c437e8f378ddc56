import Verif.Catalog
import Verif.Proofs.Catalog
import Verif.Proofs.Interface

/-! C01, C26-C31, C33, C34, C36, C37: the interface of all classes of the library. `h` ranges over the hash functions, `x` over the
extendable output functions. -/

namespace Digestpp.Properties
open Model Spec

/-! ## C01 -/

/-- **C01.** However a message is split into `absorb(ptr, len)` calls, all later outputs are the same. -/
theorem absorb_split (h : HashName) (hs : h.Supported) (ops post : List (HashOp h.cls.P)) (a b : List Bytes)
    (e : a.flatten = b.flatten) (hb : ∀ d ∈ b, d.length < 2 ^ 63)
    (hf : HashFine h.limits (ops ++ a.map (.absorb ∘ .ptr) ++ post) 0) :
    h.cls.Same (ops ++ a.map (.absorb ∘ .ptr)) (ops ++ b.map (.absorb ∘ .ptr)) post := by
  obtain ⟨Θ, f, cov, hl⟩ := Proofs.hash_laws h hs
  have e' : ∀ l : List Bytes, l.map (HashOp.absorb (P := h.cls.P) ∘ .ptr) = (l.map Source.ptr).map HashOp.absorb := fun l => by
    rw [List.map_map]
  have c' : ∀ l : List Bytes, (l.map Source.ptr).map Source.contents = l := fun l => by
    rw [List.map_map]; exact List.map_id l
  rw [e'] at hf ⊢
  rw [e']
  refine hl.absorbs (by rw [c', c', e]) hf ?_
  rw [List.append_assoc, Proofs.fine_append] at hf
  rw [Proofs.fine_append]
  refine ⟨hf.1, ?_⟩
  have : ∀ (l : List Bytes) (n : Nat), (∀ d ∈ l, d.length < 2 ^ 63) →
      HashFine h.limits ((l.map Source.ptr).map HashOp.absorb) n := by
    intro l
    induction l with
    | nil => intro n _; trivial
    | cons x l ih => intro n hx; exact ⟨hx x (List.mem_cons_self ..), ih _ fun d hd => hx d (List.mem_cons_of_mem _ hd)⟩
  exact this b _ hb

/-- **C01** for extendable output functions. -/
theorem xof_absorb_split (x : XofName) (hs : x.Supported) (ops post : List (XofOp x.cls.P)) (a b : List Bytes)
    (e : a.flatten = b.flatten) (hf : XofFine x.limits (ops ++ a.map (.absorb ∘ .ptr) ++ post) 0 0)
    (hf' : XofFine x.limits (ops ++ b.map (.absorb ∘ .ptr)) 0 0) :
    x.cls.Same (ops ++ a.map (.absorb ∘ .ptr)) (ops ++ b.map (.absorb ∘ .ptr)) post := by
  obtain ⟨Θ, f, cov, hl⟩ := Proofs.xof_laws x hs
  have e' : ∀ l : List Bytes, l.map (XofOp.absorb (P := x.cls.P) ∘ .ptr) = (l.map Source.ptr).map XofOp.absorb := fun l => by
    rw [List.map_map]
  have c' : ∀ l : List Bytes, (l.map Source.ptr).map Source.contents = l := fun l => by
    rw [List.map_map]; exact List.map_id l
  rw [e'] at hf hf' ⊢
  rw [e']
  exact hl.absorbs (by rw [c', c', e]) hf hf'

/-- `b2.absorb("ab"); b2.absorb(""); b2.absorb("c")` and `b2.absorb("abc")` before `b2.hexdigest(); b2.absorb("d"); b2.hexdigest()`. -/
example : (Model.Blake2.blake2 Model.Blake2.u64 .hash 256).Same [.absorb (.ptr (ascii "ab")), .absorb (.ptr []), .absorb (.ptr (ascii "c"))]
    [.absorb (.ptr (ascii "abc"))] [.hexdigest, .absorb (.ptr (ascii "d")), .hexdigest] :=
  absorb_split (.blake2b .runtime 256) (by decide) [] [.hexdigest, .absorb (.ptr (ascii "d")), .hexdigest] [ascii "ab", [], ascii "c"]
    [ascii "abc"] rfl (by decide) (by fine)

/-! ## C36, C37 -/

/-- **C37, C36.** The `absorb` overloads are interchangeable: whatever pieces the same bytes come in, by pointer, as `std::array`, string,
stream or iterator range, all later outputs are the same. -/
theorem absorb_overloads (h : HashName) (hs : h.Supported) (ops post : List (HashOp h.cls.P)) (a b : List Source)
    (e : (a.map Source.contents).flatten = (b.map Source.contents).flatten)
    (hf : HashFine h.limits (ops ++ a.map .absorb ++ post) 0) (hf' : HashFine h.limits (ops ++ b.map .absorb) 0) :
    h.cls.Same (ops ++ a.map .absorb) (ops ++ b.map .absorb) post := by
  obtain ⟨Θ, f, cov, hl⟩ := Proofs.hash_laws h hs
  exact hl.absorbs e hf hf'

/-- **C37, C36** for extendable output functions. -/
theorem xof_absorb_overloads (x : XofName) (hs : x.Supported) (ops post : List (XofOp x.cls.P)) (a b : List Source)
    (e : (a.map Source.contents).flatten = (b.map Source.contents).flatten)
    (hf : XofFine x.limits (ops ++ a.map .absorb ++ post) 0 0) (hf' : XofFine x.limits (ops ++ b.map .absorb) 0 0) :
    x.cls.Same (ops ++ a.map .absorb) (ops ++ b.map .absorb) post := by
  obtain ⟨Θ, f, cov, hl⟩ := Proofs.xof_laws x hs
  exact hl.absorbs e hf hf'

/-- **C36.** Absorbing a stream is absorbing the bytes left in it, here as an iterator range, which may be of any length. -/
theorem absorb_stream (h : HashName) (hs : h.Supported) (ops post : List (HashOp h.cls.P)) (d : Bytes)
    (hf : HashFine h.limits (ops ++ [.absorb (.stream d)] ++ post) 0) :
    h.cls.Same (ops ++ [.absorb (.stream d)]) (ops ++ [.absorb (.iter d)]) post := by
  refine absorb_overloads h hs ops post [.stream d] [.iter d] rfl hf ?_
  rw [List.append_assoc, Proofs.fine_append] at hf
  rw [Proofs.fine_append]
  exact ⟨hf.1, trivial, trivial⟩

/-- A stream of 70000 bytes, more than the read buffer holds, and the same bytes by pointer. -/
example : Model.Sha2.sha256.Same [.absorb (.stream (List.replicate 70000 65#8))] [.absorb (.ptr (List.replicate 70000 65#8))] [.digest] :=
  absorb_overloads .sha256 trivial [] [.digest] [.stream (List.replicate 70000 65#8)] [.ptr (List.replicate 70000 65#8)]
    (by rw [List.map_cons, List.map_cons]; rfl)
    ⟨trivial, trivial, trivial⟩ ⟨by rw [Source.Valid, List.length_replicate]; decide, trivial⟩

/-! ## C26 -/

/-- **C26.** A digest call in a history of calls on an object of whatever class changes no other output, and is not needed for the
others to be defined. -/
theorem digest_pure (c : HashClass) (mem : c.S) (pre post : List (HashOp c.P)) (d : HashOp c.P) (hd : d.IsDigest) (os : List Obs)
    (h : c.trial mem (pre ++ d :: post) = some os) : c.trial mem (pre ++ post) = some (os.eraseIdx pre.length) := by
  obtain ⟨s, s', h1, h2⟩ := Proofs.trial_ok h
  exact Proofs.trial_of h1 (Proofs.prun_digest c.pr hd post pre s _ h2)

/-- **C26**, for the library's classes, where the digest call is known to be defined. -/
theorem digest_pure_lib (h : HashName) (hs : h.Supported) (ops post : List (HashOp h.cls.P)) (d : HashOp h.cls.P) (hd : d.IsDigest)
    (hf : HashFine h.limits (ops ++ [d] ++ post) 0) : h.cls.Same (ops ++ [d]) ops post := by
  obtain ⟨Θ, f, cov, hl⟩ := Proofs.hash_laws h hs
  exact hl.digestPure hd hf

example : (Model.Sha3.sha3 256).Same [.absorb (.ptr (ascii "ab")), .hexdigest] [.absorb (.ptr (ascii "ab"))]
    [.absorb (.ptr (ascii "c")), .digest] :=
  digest_pure_lib (.sha3 .runtime 256) (by decide) [.absorb (.ptr (ascii "ab"))] [.absorb (.ptr (ascii "c")), .digest] .hexdigest trivial
    (by fine)

/-! ## C27 -/

/-- **C27.** After any history, `reset()` makes the object behave as a new one on which only the setters of that history have been
called, those since the last `reset(true)`. -/
theorem reset_restarts (h : HashName) (hs : h.Supported) (ops post : List (HashOp h.cls.P))
    (hf : HashFine h.limits (ops ++ [.reset false] ++ post) 0) :
    h.cls.Same (ops ++ [.reset false]) (HashOp.settings ops) post := by
  obtain ⟨Θ, f, cov, hl⟩ := Proofs.hash_laws h hs
  exact hl.reset hf

/-- **C27** for extendable output functions. -/
theorem xof_reset_restarts (x : XofName) (hs : x.Supported) (ops post : List (XofOp x.cls.P))
    (hf : XofFine x.limits (ops ++ [.reset false] ++ post) 0 0) :
    x.cls.Same (ops ++ [.reset false]) (XofOp.settings ops) post := by
  obtain ⟨Θ, f, cov, hl⟩ := Proofs.xof_laws x hs
  exact hl.reset hf

example : (Model.Kmac.kmac 128 256).Same [.set (.key (ascii "k")), .absorb (.ptr (ascii "ab")), .digest, .reset false]
    [.set (.key (ascii "k"))] [.absorb (.ptr (ascii "c")), .digest] :=
  reset_restarts (.kmac .runtime 128 256) (by decide) [.set (.key (ascii "k")), .absorb (.ptr (ascii "ab")), .digest]
    [.absorb (.ptr (ascii "c")), .digest]
    (by fine)

/-! ## C28 -/

/-- **C28.** After any history, `reset(true)` makes the object behave as a new one. Missing: `blake2bp` and `blake2sp`, for which it does
not (`blake2bp_reset_true_wrong`, `blake2sp_reset_true_wrong`). -/
theorem reset_true_partial (h : HashName) (hs : h.Supported) (hr : h.ResetTrue) (ops post : List (HashOp h.cls.P))
    (hf : HashFine h.limits ops 0) (hf' : HashFine h.limits post 0) :
    h.cls.Same (ops ++ [.reset true]) [] post := by
  obtain ⟨Θ, f, cov, hl⟩ := Proofs.hash_laws h hs
  refine hl.resetTrue ?_
  rw [List.append_assoc, Proofs.fine_append]
  exact ⟨hf, fun _ => hr, hf'⟩

/-- **C28** for extendable output functions. Missing: `ascon_cxof`, for which it does not hold (`ascon_cxof_reset_true_wrong`). -/
theorem xof_reset_true_partial (x : XofName) (hs : x.Supported) (hr : x.ResetTrue) (ops post : List (XofOp x.cls.P))
    (hf : XofFine x.limits ops 0 0) (hf' : XofFine x.limits post 0 0) :
    x.cls.Same (ops ++ [.reset true]) [] post := by
  obtain ⟨Θ, f, cov, hl⟩ := Proofs.xof_laws x hs
  refine hl.resetTrue ?_
  rw [List.append_assoc, Proofs.xfine_append]
  exact ⟨hf, fun _ => hr, hf'⟩

example : (Model.Skein.skein Model.Skein.f8 512).Same [.set (.key (ascii "k")), .absorb (.ptr (ascii "ab")), .reset true] []
    [.absorb (.ptr (ascii "c")), .digest] :=
  reset_true_partial (.skein512 .runtime 512) (by decide) trivial [.set (.key (ascii "k")), .absorb (.ptr (ascii "ab"))]
    [.absorb (.ptr (ascii "c")), .digest]
    (by fine)
    (by fine)

/-! ## C29 -/

/-- **C29.** After a setter call that is accepted the object behaves as a new one on which only setters have been called: what was absorbed
before is dropped. -/
theorem set_restarts (h : HashName) (hs : h.Supported) (ops post : List (HashOp h.cls.P)) (p : h.cls.P)
    (hp : h.acceptsLen (Param.kind p) (Param.value p).length = true) (hf : HashFine h.limits (ops ++ [.set p] ++ post) 0) :
    h.cls.Same (ops ++ [.set p]) (HashOp.settings ops ++ [.set p]) post := by
  obtain ⟨Θ, f, cov, hl⟩ := Proofs.hash_laws h hs
  exact hl.set hp hf

/-- **C29.** The order in which two different parameters are set is irrelevant. -/
theorem set_order (h : HashName) (hs : h.Supported) (ops post : List (HashOp h.cls.P)) (p q : h.cls.P)
    (hp : h.acceptsLen (Param.kind p) (Param.value p).length = true) (hq : h.acceptsLen (Param.kind q) (Param.value q).length = true)
    (hk : Param.kind p ≠ Param.kind q) (hf : HashFine h.limits (ops ++ [.set p, .set q] ++ post) 0) :
    h.cls.Same (ops ++ [.set p, .set q]) (ops ++ [.set q, .set p]) post := by
  obtain ⟨Θ, f, cov, hl⟩ := Proofs.hash_laws h hs
  exact hl.swap hp hq hk hf

/-- **C29.** The last value of a parameter counts. (Empty values: see C50.) -/
theorem set_overwrites (h : HashName) (hs : h.Supported) (ops post : List (HashOp h.cls.P)) (p q : h.cls.P)
    (hp : h.acceptsLen (Param.kind p) (Param.value p).length = true) (hq : h.acceptsLen (Param.kind q) (Param.value q).length = true)
    (hk : Param.kind p = Param.kind q) (hv : Param.value q ≠ []) (hf : HashFine h.limits (ops ++ [.set p, .set q] ++ post) 0) :
    h.cls.Same (ops ++ [.set p, .set q]) (ops ++ [.set q]) post := by
  obtain ⟨Θ, f, cov, hl⟩ := Proofs.hash_laws h hs
  exact hl.overwrite hp hq hk hv hf

/-- **C29** for extendable output functions. -/
theorem xof_set_restarts (x : XofName) (hs : x.Supported) (ops post : List (XofOp x.cls.P)) (p : x.cls.P)
    (hp : x.acceptsLen (Param.kind p) (Param.value p).length = true) (hf : XofFine x.limits (ops ++ [.set p] ++ post) 0 0) :
    x.cls.Same (ops ++ [.set p]) (XofOp.settings ops ++ [.set p]) post := by
  obtain ⟨Θ, f, cov, hl⟩ := Proofs.xof_laws x hs
  exact hl.set hp hf

/-- **C29** for extendable output functions. -/
theorem xof_set_order (x : XofName) (hs : x.Supported) (ops post : List (XofOp x.cls.P)) (p q : x.cls.P)
    (hp : x.acceptsLen (Param.kind p) (Param.value p).length = true) (hq : x.acceptsLen (Param.kind q) (Param.value q).length = true)
    (hk : Param.kind p ≠ Param.kind q) (hf : XofFine x.limits (ops ++ [.set p, .set q] ++ post) 0 0) :
    x.cls.Same (ops ++ [.set p, .set q]) (ops ++ [.set q, .set p]) post := by
  obtain ⟨Θ, f, cov, hl⟩ := Proofs.xof_laws x hs
  exact hl.swap hp hq hk hf

/-- **C29** for extendable output functions. -/
theorem xof_set_overwrites (x : XofName) (hs : x.Supported) (ops post : List (XofOp x.cls.P)) (p q : x.cls.P)
    (hp : x.acceptsLen (Param.kind p) (Param.value p).length = true) (hq : x.acceptsLen (Param.kind q) (Param.value q).length = true)
    (hk : Param.kind p = Param.kind q) (hv : Param.value q ≠ []) (hf : XofFine x.limits (ops ++ [.set p, .set q] ++ post) 0 0) :
    x.cls.Same (ops ++ [.set p, .set q]) (ops ++ [.set q]) post := by
  obtain ⟨Θ, f, cov, hl⟩ := Proofs.xof_laws x hs
  exact hl.overwrite hp hq hk hv hf

example : (Model.Skein.skein Model.Skein.f8 512).Same [.absorb (.ptr (ascii "ab")), .set (.key (ascii "k")), .set (.nonce (ascii "n"))]
    [.absorb (.ptr (ascii "ab")), .set (.nonce (ascii "n")), .set (.key (ascii "k"))] [.absorb (.ptr (ascii "c")), .digest] :=
  set_order (.skein512 .runtime 512) (by decide) [.absorb (.ptr (ascii "ab"))] [.absorb (.ptr (ascii "c")), .digest] (.key (ascii "k"))
    (.nonce (ascii "n")) rfl rfl (show 2 ≠ 1 by decide)
    (by fine)

/-! ## C30 -/

/-- **C30.** A setter call whose argument has an unsupported length throws, and leaves no trace; one with a supported length returns. -/
theorem set_rejected (h : HashName) (hs : h.Supported) (ops post : List (HashOp h.cls.P)) (p : h.cls.P)
    (hf : HashFine h.limits (ops ++ [.set p] ++ post) 0) :
    (h.acceptsLen (Param.kind p) (Param.value p).length = false →
      (∀ mem, h.cls.Mem mem → h.cls.after mem ops [.set p] = some [.threw]) ∧ h.cls.Same (ops ++ [.set p]) ops post) ∧
    (h.acceptsLen (Param.kind p) (Param.value p).length = true →
      ∀ mem, h.cls.Mem mem → h.cls.after mem ops [.set p] = some [.done]) := by
  obtain ⟨Θ, f, cov, hl⟩ := Proofs.hash_laws h hs
  have hf1 : HashFine h.limits (ops ++ [.set p]) 0 := by rw [Proofs.fine_append] at hf; exact hf.1
  exact ⟨fun e => ⟨fun mem hm => hl.setThrew e hf1 hm, hl.setRejected e hf⟩, fun e mem hm => hl.setDone e hf1 hm⟩

/-- **C30** for extendable output functions. -/
theorem xof_set_rejected (x : XofName) (hs : x.Supported) (ops post : List (XofOp x.cls.P)) (p : x.cls.P)
    (hf : XofFine x.limits (ops ++ [.set p] ++ post) 0 0) :
    (x.acceptsLen (Param.kind p) (Param.value p).length = false →
      (∀ mem, x.cls.Mem mem → x.cls.after mem ops [.set p] = some [.threw]) ∧ x.cls.Same (ops ++ [.set p]) ops post) ∧
    (x.acceptsLen (Param.kind p) (Param.value p).length = true →
      ∀ mem, x.cls.Mem mem → x.cls.after mem ops [.set p] = some [.done]) := by
  obtain ⟨Θ, f, cov, hl⟩ := Proofs.xof_laws x hs
  have hf1 : XofFine x.limits (ops ++ [.set p]) 0 0 := by rw [Proofs.xfine_append] at hf; exact hf.1
  exact ⟨fun e => ⟨fun mem hm => hl.setThrew e hf1 hm, hl.setRejected e hf⟩, fun e mem hm => hl.setDone e hf1 hm⟩

/-- A BLAKE-256 salt of five bytes, in the middle of a message. -/
example : (Model.Blake.blake 256).Same [.absorb (.ptr (ascii "ab")), .set (.salt (ascii "short"))] [.absorb (.ptr (ascii "ab"))]
    [.absorb (.ptr (ascii "c")), .digest] :=
  ((set_rejected (.blake .runtime 256) (by decide) [.absorb (.ptr (ascii "ab"))] [.absorb (.ptr (ascii "c")), .digest]
    (.salt (ascii "short"))
    (by fine)).1
    (by decide)).2

/-! ## C31 -/

/-- **C31.** The output squeezed after a restart and any `absorb` calls, in portions of any positive lengths, is the prefix of one infinite
stream, which depends on the setters in force and on the bytes absorbed. -/
theorem squeeze_stream (x : XofName) (hs : x.Supported) : ∃ stream : List (XofOp x.cls.P) → Bytes → Nat → Byte,
    ∀ (ops : List (XofOp x.cls.P)) (srcs : List Source) (ns : List Nat) (mem : x.cls.S), x.cls.Mem mem →
      XofFine x.limits (ops ++ [.reset false] ++ srcs.map .absorb ++ ns.map .squeeze) 0 0 →
      ∃ bs : List Bytes, x.cls.after mem (ops ++ [.reset false] ++ srcs.map .absorb) (ns.map .squeeze) = some (bs.map .bytes) ∧
        bs.map List.length = ns ∧
        bs.flatten = (List.range ns.sum).map (stream (XofOp.settings ops) (srcs.map Source.contents).flatten) := by
  obtain ⟨Θ, f, cov, hl⟩ := Proofs.xof_laws x hs
  obtain ⟨st, h⟩ := hl.squeezes
  refine ⟨st, fun ops srcs ns mem hm hf => ?_⟩
  obtain ⟨bs, h1, h2, h3⟩ := h ops srcs ns mem hm hf
  refine ⟨bs, h1, h2, ?_⟩
  rw [h3]
  unfold slice
  apply List.map_congr_left
  intro i _
  rw [Nat.zero_add]

/-- **C31.** How output has been squeezed so far makes no difference to what comes after. -/
theorem squeeze_split (x : XofName) (hs : x.Supported) (ops post : List (XofOp x.cls.P)) (ns ms : List Nat) (e : ns.sum = ms.sum)
    (hf : XofFine x.limits (ops ++ ns.map .squeeze ++ post) 0 0) (hf' : XofFine x.limits (ops ++ ms.map .squeeze) 0 0) :
    x.cls.Same (ops ++ ns.map .squeeze) (ops ++ ms.map .squeeze) post := by
  obtain ⟨Θ, f, cov, hl⟩ := Proofs.xof_laws x hs
  exact hl.squeezeSplit e hf hf'

/-- **C31.** Squeezing into a buffer, through an output iterator and as text are the same for what comes after. -/
theorem squeeze_forms_same (x : XofName) (hs : x.Supported) (ops post : List (XofOp x.cls.P)) (a b : XofOp x.cls.P) (n : Nat)
    (ha : a.squeezeLen = some n) (hb : b.squeezeLen = some n) (hf : XofFine x.limits (ops ++ [a] ++ post) 0 0) :
    x.cls.Same (ops ++ [a]) (ops ++ [b]) post := by
  obtain ⟨Θ, f, cov, hl⟩ := Proofs.xof_laws x hs
  exact hl.squeezeSame ha hb hf

/-- 300 bytes of SHAKE128 output as 1 + 299 and as 200 + 100, before another 7 bytes. -/
example : (Model.Shake.shake 128).Same [.absorb (.ptr (ascii "ab")), .squeeze 1, .squeeze 299]
    [.absorb (.ptr (ascii "ab")), .squeeze 200, .squeeze 100] [.squeeze 7] :=
  squeeze_split (.shake 128) (by decide) [.absorb (.ptr (ascii "ab"))] [.squeeze 7] [1, 299] [200, 100] rfl
    (by fine)
    (by fine)

/-! ## C33, C34 -/

/-- Value of a lowercase hexadecimal digit. -/
def hexValue (c : Char) : Nat := if c.toNat < 58 then c.toNat - 48 else c.toNat - 87

/-- Decoding of pairs of digits. -/
def unhex : List Char → Bytes
  | a :: b :: rest => BitVec.ofNat 8 (16 * hexValue a + hexValue b) :: unhex rest
  | _ => []

/-- **C33.** The formatting loops of `hexdigest` and `hexsqueeze` write two characters per byte, all of them among `0`-`9` and `a`-`f`, and
decoding gives the bytes back. -/
theorem hex_roundtrip (b : Bytes) : (hexString b).length = 2 * b.length ∧
    (∀ c ∈ hexString b, c ∈ "0123456789abcdef".toList) ∧ unhex (hexString b) = b := by
  induction b with
  | nil => exact ⟨rfl, nofun, rfl⟩
  | cons x b ih =>
    have hb : ∀ x : Byte, ∃ c d, hexByte x = [c, d] ∧ c ∈ "0123456789abcdef".toList ∧ d ∈ "0123456789abcdef".toList ∧
        BitVec.ofNat 8 (16 * hexValue c + hexValue d) = x := by
      intro x
      refine ⟨hexDigit (x.toNat / 16), hexDigit (x.toNat % 16), Proofs.hexByte_eq x, ?_⟩
      revert x
      decide +kernel
    obtain ⟨c, d, e, hc, hd, hv⟩ := hb x
    have es : hexString (x :: b) = c :: d :: hexString b := by
      show hexByte x ++ hexString b = _
      rw [e]; rfl
    rw [es]
    refine ⟨by rw [List.length_cons, List.length_cons, ih.1, List.length_cons]; omega, ?_, ?_⟩
    · intro y hy
      rcases List.mem_cons.mp hy with rfl | hy
      · exact hc
      · rcases List.mem_cons.mp hy with rfl | hy
        · exact hd
        · exact ih.2.1 y hy
    · show BitVec.ofNat 8 _ :: unhex (hexString b) = _
      rw [hv, ih.2.2]

/-- **C34, C33.** In every situation there is one digest of `size/8` bytes: `digest(it)` yields it, `hexdigest()` is its text, and
`digest(buf, len)` throws if the buffer is too short and otherwise overwrites exactly its first `size/8` bytes with it. -/
theorem digest_exact (h : HashName) (hs : h.Supported) (ops : List (HashOp h.cls.P))
    (hf : HashFine h.limits (ops ++ [.digest]) 0) : ∃ d : Bytes, d.length = h.size / 8 ∧
      ∀ mem, h.cls.Mem mem → h.cls.after mem ops [.digest] = some [.bytes d] ∧
        (∃ t, h.cls.after mem ops [.hexdigest] = some [.text t] ∧ t.length = 2 * d.length ∧ unhex t = d) ∧
        ∀ buf, h.cls.after mem ops [.digestBuf buf] =
          some [if buf.length < h.size / 8 then .threw else .buffer (d ++ buf.drop (h.size / 8))] := by
  obtain ⟨Θ, f, cov, hl⟩ := Proofs.hash_laws h hs
  by_cases hm : ∃ mem, h.cls.Mem mem
  case neg => exact ⟨List.replicate (h.size / 8) 0, List.length_replicate, fun mem h => absurd ⟨mem, h⟩ hm⟩
  obtain ⟨mem, hm⟩ := hm
  obtain ⟨d, h1, h2, h3, h4⟩ := hl.digests hm hf
  refine ⟨d, h1, fun mem hm => ⟨h2 mem hm, ⟨hex d, h3 mem hm, ?_, ?_⟩, fun buf => h4 buf mem hm⟩⟩
  · rw [← Proofs.hexString_eq, (hex_roundtrip d).1]
  · rw [← Proofs.hexString_eq, (hex_roundtrip d).2.2]

/-- **C33** for extendable output functions: the three ways of squeezing give the same bytes. -/
theorem squeeze_forms (x : XofName) (hs : x.Supported) (ops : List (XofOp x.cls.P)) (n : Nat)
    (hf : XofFine x.limits (ops ++ [.squeeze n]) 0 0) : ∃ d : Bytes, d.length = n ∧
      ∀ mem, x.cls.Mem mem → x.cls.after mem ops [.squeeze n] = some [.bytes d] ∧
        (∃ t, x.cls.after mem ops [.hexsqueeze n] = some [.text t] ∧ t.length = 2 * n ∧ unhex t = d) ∧
        ∀ buf, buf.length = n → x.cls.after mem ops [.squeezeBuf buf] = some [.buffer d] := by
  obtain ⟨Θ, f, cov, hl⟩ := Proofs.xof_laws x hs
  obtain ⟨d, h1, h2, h3, h4⟩ := hl.squeezeForms hf
  refine ⟨d, h1, fun mem hm => ⟨h2 mem hm, ⟨hex d, h3 mem hm, ?_, ?_⟩, fun buf hb => h4 buf hb mem hm⟩⟩
  · rw [← Proofs.hexString_eq, (hex_roundtrip d).1, h1]
  · rw [← Proofs.hexString_eq, (hex_roundtrip d).2.2]

/-- `md5.absorb("a"); md5.digest(buf, 20)` for a buffer of 20 bytes `0xff`: the last four stay. -/
example : ∃ d : Bytes, d.length = 16 ∧ ∀ mem, Model.Md5.cls.Mem mem →
    Model.Md5.cls.after mem [.absorb (.ptr (ascii "a"))] [.digestBuf (List.replicate 20 0xff#8)] =
      some [.buffer (d ++ List.replicate 4 0xff#8)] := by
  obtain ⟨d, h1, h2⟩ := digest_exact .md5 trivial [.absorb (.ptr (ascii "a"))]
    (by fine)
  exact ⟨d, h1, fun mem hm => (h2 mem hm).2.2 (List.replicate 20 0xff#8)⟩

end Digestpp.Properties
