import Verif.Proofs.Catalog
import Verif.Proofs.EmptyParam

/-! C50: empty values given to setters. -/

namespace Digestpp.Properties
open Model Spec

/-- **C50**, wherever it holds. After any history, setting a parameter to the empty string makes the object behave as a new one on which
the other setters of that history have been called, but not those of this parameter. Missing: salt and personalization of the BLAKE2
classes, for which it is false (`empty_salt_kept`, `blake2_salt_stays`). -/
theorem set_empty_removes_partial (h : HashName) (hs : h.Supported) (ops post : List (HashOp h.cls.P)) (p : h.cls.P)
    (hv : Param.value p = []) (hk : h.Forgets (Param.kind p)) (hf : HashFine h.limits (ops ++ [.set p] ++ post) 0) :
    h.cls.Same (ops ++ [.set p]) ((HashOp.settings ops).filter (HashOp.otherKind (Param.kind p))) post := by
  obtain ⟨Θ, f, cov, hl⟩ := Proofs.hash_laws h hs
  exact hl.forget hv hk hf

/-- **C50** for extendable output functions, wherever it holds. Missing: salt and personalization of the BLAKE2 classes. -/
theorem xof_set_empty_removes_partial (x : XofName) (hs : x.Supported) (ops post : List (XofOp x.cls.P)) (p : x.cls.P)
    (hv : Param.value p = []) (hk : x.Forgets (Param.kind p)) (hf : XofFine x.limits (ops ++ [.set p] ++ post) 0 0) :
    x.cls.Same (ops ++ [.set p]) ((XofOp.settings ops).filter (XofOp.otherKind (Param.kind p))) post := by
  obtain ⟨Θ, f, cov, hl⟩ := Proofs.xof_laws x hs
  exact hl.forget hv hk hf

/-- **C50**, what happens in the BLAKE2 classes: an empty salt or personalization restarts the object and keeps the old value. -/
theorem empty_salt_kept (h : HashName) (hs : h.Supported) (ops post : List (HashOp h.cls.P)) (p : h.cls.P)
    (hv : Param.value p = []) (hk : ¬h.Forgets (Param.kind p)) (hf : HashFine h.limits (ops ++ [.set p] ++ post) 0) :
    h.cls.Same (ops ++ [.set p]) (HashOp.settings ops) post := by
  obtain ⟨Θ, f, cov, hl⟩ := Proofs.hash_laws h hs
  exact hl.keep hv hk hf

/-- **C50**, the same for extendable output functions. -/
theorem xof_empty_salt_kept (x : XofName) (hs : x.Supported) (ops post : List (XofOp x.cls.P)) (p : x.cls.P)
    (hv : Param.value p = []) (hk : ¬x.Forgets (Param.kind p)) (hf : XofFine x.limits (ops ++ [.set p] ++ post) 0 0) :
    x.cls.Same (ops ++ [.set p]) (XofOp.settings ops) post := by
  obtain ⟨Θ, f, cov, hl⟩ := Proofs.xof_laws x hs
  exact hl.keep hv hk hf

def blake2Mem32 : Blk (Model.Blake2.St 32) := ⟨⟨[], [], [], [], 0, 0, false, 0, 0, 0⟩, List.replicate 64 0, 0, 0⟩

/-- **C50** is false: a salt and a personalization of BLAKE2s that are still there after an empty one has been set. -/
theorem blake2_salt_stays :
    ¬(Model.Blake2.blake2 Model.Blake2.u32 .hash 256).Same [.set (.salt (ascii "saltsalt")), .set (.salt [])] [] [.digest] ∧
    ¬(Model.Blake2.blake2 Model.Blake2.u32 .hash 256).Same [.set (.personalization (ascii "personal")), .set (.personalization [])] []
      [.digest] := by
  have hm : (Model.Blake2.blake2 Model.Blake2.u32 .hash 256).Mem blake2Mem32 := rfl
  have h0 : (Model.Blake2.blake2 Model.Blake2.u32 .hash 256).after blake2Mem32 [] [.digest] ≠
      (Model.Blake2.blake2 Model.Blake2.u32 .hash 256).after blake2Mem32 [.set (.salt (ascii "saltsalt")), .set (.salt [])] [.digest] := by
    decide +kernel
  have h1 : (Model.Blake2.blake2 Model.Blake2.u32 .hash 256).after blake2Mem32 [] [.digest] ≠
      (Model.Blake2.blake2 Model.Blake2.u32 .hash 256).after blake2Mem32
        [.set (.personalization (ascii "personal")), .set (.personalization [])] [.digest] := by
    decide +kernel
  constructor
  · intro h
    obtain ⟨os, _, a, b⟩ := h blake2Mem32 blake2Mem32 hm hm
    exact h0 (b.trans a.symm)
  · intro h
    obtain ⟨os, _, a, b⟩ := h blake2Mem32 blake2Mem32 hm hm
    exact h1 (b.trans a.symm)

example : (Model.Blake.blake 256).Same [.set (.salt (ascii "sixteen bytes...")), .absorb (.ptr [1, 2]), .set (.salt [])] []
    [.absorb (.ptr (ascii "c")), .digest] :=
  set_empty_removes_partial (.blake .runtime 256) (by decide) [.set (.salt (ascii "sixteen bytes...")), .absorb (.ptr [1, 2])]
    [.absorb (.ptr (ascii "c")), .digest] (.salt []) rfl trivial (by fine)
example : (Model.Skein.skein Model.Skein.f8 512).Same [.set (.key (ascii "k")), .set (.nonce (ascii "n")), .set (.key [])]
    [.set (.nonce (ascii "n"))] [.absorb (.ptr (ascii "c")), .digest] :=
  set_empty_removes_partial (.skein512 .runtime 512) (by decide) [.set (.key (ascii "k")), .set (.nonce (ascii "n"))]
    [.absorb (.ptr (ascii "c")), .digest] (.key []) rfl trivial (by fine)
example : (Model.Blake2.blake2 Model.Blake2.u64 .hash 512).Same [.set (.salt (ascii "sixteen bytes...")), .set (.salt [])]
    [.set (.salt (ascii "sixteen bytes..."))] [.absorb (.ptr (ascii "c")), .digest] :=
  empty_salt_kept (.blake2b .runtime 512) (by decide) [.set (.salt (ascii "sixteen bytes..."))]
    [.absorb (.ptr (ascii "c")), .digest] (.salt []) rfl (show ¬(0 : Nat) = 2 by decide) (by fine)

end Digestpp.Properties
