import Verif.Proofs.Laws
import Verif.Properties.Api
import Verif.Properties.Collision
import Verif.Properties.InnerCollision
import Verif.Properties.Tree

/-! C51, C60, C64 for objects: two objects of one class that print the same text have absorbed the same, or there is a collision. -/

namespace Digestpp.Properties
open Model Spec Proofs

theorem hex_injective {a b : Bytes} (h : hex a = hex b) : a = b := by
  rw [← hexString_eq, ← hexString_eq] at h
  rw [← (hex_roundtrip a).2.2, h, (hex_roundtrip b).2.2]

/-- **C51, C60, C64.** Two objects of a class conforming to `f`, after any two histories, print the same digest: the digests prescribed for what they have absorbed are the same. -/
theorem hash_same_digest {c : HashClass} {Θ : Type} {f : HashFn c.P Θ} {cov : Cover c.P Θ} (hc : HashConforms c f cov) {mem mem' s s' : c.S} (hm : c.Mem mem) (hm' : c.Mem mem')
    (hs : c.construct mem = .ok (some s)) (hs' : c.construct mem' = .ok (some s')) {ops ops' : List (HashOp c.P)}
    (h : f.Covered cov (ops ++ [.hexdigest]) f.new) (h' : f.Covered cov (ops' ++ [.hexdigest]) f.new) {os os' : List Obs} {t t' : c.S}
    (hr : c.pr.run (ops ++ [.hexdigest]) s = .ok (os, t)) (hr' : c.pr.run (ops' ++ [.hexdigest]) s' = .ok (os', t')) (hl : os.getLast? = os'.getLast?) :
    f.digest (f.run ops f.new).2.params (f.run ops f.new).2.msg = f.digest (f.run ops' f.new).2.params (f.run ops' f.new).2.msg := by
  have key : ∀ {mem s : c.S} {ops : List (HashOp c.P)} {os : List Obs} {t : c.S}, c.Mem mem → c.construct mem = .ok (some s) → f.Covered cov (ops ++ [.hexdigest]) f.new →
      c.pr.run (ops ++ [.hexdigest]) s = .ok (os, t) → os.getLast? = some (.text (hex (f.digest (f.run ops f.new).2.params (f.run ops f.new).2.msg))) := by
    intro mem s ops os t hm hs h hr
    obtain ⟨s1, e1, e2⟩ := hc mem hm
    cases Option.some.inj (Except.ok.inj (hs.symm.trans e1))
    obtain ⟨s2, e3⟩ := e2 _ h
    rw [(Prod.mk.inj (Except.ok.inj (hr.symm.trans e3))).1, run_append]
    exact List.getLast?_concat
  have e := (key hm hs h hr).symm.trans (hl.trans (key hm' hs' h' hr'))
  injection e with e
  injection e with e
  exact hex_injective e

/-- **C51, C60, C64.** The same for `n` bytes that extendable output objects print first. -/
theorem xof_same_output {c : XofClass} {Θ : Type} {f : XofFn c.P Θ} {cov : Cover c.P Θ} (hc : XofConforms c f cov) {mem mem' s s' : c.S} (hm : c.Mem mem) (hm' : c.Mem mem')
    (hs : c.construct mem = .ok (some s)) (hs' : c.construct mem' = .ok (some s')) {ops ops' : List (XofOp c.P)} {n : Nat}
    (h : f.Covered cov (ops ++ [.hexsqueeze n]) f.new) (h' : f.Covered cov (ops' ++ [.hexsqueeze n]) f.new)
    (hz : (f.run ops f.new).2.squeezed = 0) (hz' : (f.run ops' f.new).2.squeezed = 0) {os os' : List Obs} {t t' : c.S}
    (hr : c.pr.run (ops ++ [.hexsqueeze n]) s = .ok (os, t)) (hr' : c.pr.run (ops' ++ [.hexsqueeze n]) s' = .ok (os', t')) (hl : os.getLast? = os'.getLast?) :
    slice (f.stream (f.run ops f.new).2.params (f.run ops f.new).2.msg) 0 n = slice (f.stream (f.run ops' f.new).2.params (f.run ops' f.new).2.msg) 0 n := by
  have key : ∀ {mem s : c.S} {ops : List (XofOp c.P)} {os : List Obs} {t : c.S}, c.Mem mem → c.construct mem = .ok (some s) → f.Covered cov (ops ++ [.hexsqueeze n]) f.new →
      (f.run ops f.new).2.squeezed = 0 → c.pr.run (ops ++ [.hexsqueeze n]) s = .ok (os, t) →
      os.getLast? = some (.text (hex (slice (f.stream (f.run ops f.new).2.params (f.run ops f.new).2.msg) 0 n))) := by
    intro mem s ops os t hm hs h hz hr
    obtain ⟨s1, e1, e2⟩ := hc mem hm
    cases Option.some.inj (Except.ok.inj (hs.symm.trans e1))
    obtain ⟨s2, e3⟩ := e2 _ h
    rw [(Prod.mk.inj (Except.ok.inj (hr.symm.trans e3))).1, xrun_append, ← hz]
    exact List.getLast?_concat
  have e := (key hm hs h hz hr).symm.trans (hl.trans (key hm' hs' h' hz' hr'))
  injection e with e
  injection e with e
  exact hex_injective e

/-- **C51** for objects: two `md5` objects print the same digest, but different messages have been absorbed: there is a collision of the compression function. -/
theorem md5_objects_collide {mem mem' s s' : Model.Md5.cls.S} (hm : Model.Md5.cls.Mem mem) (hm' : Model.Md5.cls.Mem mem') (hs : Model.Md5.cls.construct mem = .ok (some s))
    (hs' : Model.Md5.cls.construct mem' = .ok (some s')) {ops ops' : List (HashOp Empty)} (h : Spec.Md5.md5.Covered (.all Empty) (ops ++ [.hexdigest]) Spec.Md5.md5.new)
    (h' : Spec.Md5.md5.Covered (.all Empty) (ops' ++ [.hexdigest]) Spec.Md5.md5.new) {os os' : List Obs} {t t' : Model.Md5.cls.S}
    (hr : Model.Md5.cls.pr.run (ops ++ [.hexdigest]) s = .ok (os, t)) (hr' : Model.Md5.cls.pr.run (ops' ++ [.hexdigest]) s' = .ok (os', t')) (hl : os.getLast? = os'.getLast?) :
    let m := (Spec.Md5.md5.run ops Spec.Md5.md5.new).2.msg
    let m' := (Spec.Md5.md5.run ops' Spec.Md5.md5.new).2.msg
    m.length < 2 ^ 61 → m'.length < 2 ^ 61 → m ≠ m' → Spec.Inputs.md5.StepCollision (fun h => ofLeWords [h.1, h.2.1, h.2.2.1, h.2.2.2]) () () m m' := by
  intro m m' b b' hne
  have e := hash_same_digest md5_conforms hm hm' hs hs' h h' hr hr' hl
  refine md5_collision () () m m' b b' (fun z => hne z.2) ?_
  have q : Spec.Md5.md5.digest = Spec.Inputs.md5.result := congrArg HashFn.digest Inputs.md5_eq
  rw [← q]
  exact e

/-- **C64** for objects: two `k12` objects print the same `n` bytes, but different messages or customizations have been given to them: there is a collision in a node. -/
theorem k12_objects_collide {mem mem' s s' : (Model.K12.k12 128 12).S} (hm : (Model.K12.k12 128 12).Mem mem) (hm' : (Model.K12.k12 128 12).Mem mem')
    (hs : (Model.K12.k12 128 12).construct mem = .ok (some s)) (hs' : (Model.K12.k12 128 12).construct mem' = .ok (some s')) {ops ops' : List (XofOp CustomizationParam)} {n : Nat}
    (h : (Spec.k12 128 12).Covered ⟨fun _ m => m.length < 2 ^ 64, True, k12Short, fun _ => True⟩ (ops ++ [.hexsqueeze n]) (Spec.k12 128 12).new)
    (h' : (Spec.k12 128 12).Covered ⟨fun _ m => m.length < 2 ^ 64, True, k12Short, fun _ => True⟩ (ops' ++ [.hexsqueeze n]) (Spec.k12 128 12).new)
    {os os' : List Obs} {t t' : (Model.K12.k12 128 12).S}
    (hr : (Model.K12.k12 128 12).pr.run (ops ++ [.hexsqueeze n]) s = .ok (os, t)) (hr' : (Model.K12.k12 128 12).pr.run (ops' ++ [.hexsqueeze n]) s' = .ok (os', t'))
    (hl : os.getLast? = os'.getLast?) :
    let o := ((Spec.k12 128 12).run ops (Spec.k12 128 12).new).2
    let o' := ((Spec.k12 128 12).run ops' (Spec.k12 128 12).new).2
    let S := o.msg ++ o.params ++ Spec.K12.lengthEncode o.params.length
    let S' := o'.msg ++ o'.params ++ Spec.K12.lengthEncode o'.params.length
    o.squeezed = 0 → o'.squeezed = 0 → S.length < 2 ^ 64 → S'.length < 2 ^ 64 → ¬ (o.params = o'.params ∧ o.msg = o'.msg) → Spec.Inputs.K12Collision 12 168 32 S S' n := by
  intro o o' S S' z z' b b' hne
  exact k12_tree_collision 128 12 n (.inl rfl) _ _ _ _ b b' hne (xof_same_output k12_conforms hm hm' hs hs' h h' z z' hr hr' hl)

/-! The hypotheses can be met: MD5 has known collisions (Wang, Feng, Lai, Yu 2004). -/

/-- The first message of a known collision. -/
def wang : Bytes := unhex "d131dd02c5e6eec4693d9a0698aff95c2fcab58712467eab4004583eb8fb7f8955ad340609f4b30283e488832571415a085125e8f7cdc99fd91dbdf280373c5bd8823e3156348f5bae6dacd436c919c6dd53e2b487da03fd02396306d248cda0e99f33420f577ee8ce54b67080a80d1ec69821bcb6a8839396f9652b6ff72a70".toList
/-- The second one. -/
def wang' : Bytes := unhex "d131dd02c5e6eec4693d9a0698aff95c2fcab50712467eab4004583eb8fb7f8955ad340609f4b30283e4888325f1415a085125e8f7cdc99fd91dbd7280373c5bd8823e3156348f5bae6dacd436c919c6dd53e23487da03fd02396306d248cda0e99f33420f577ee8ce54b67080280d1ec69821bcb6a8839396f965ab6ff72a70".toList

example : wang.length = 128 ∧ wang'.length = 128 ∧ wang ≠ wang' := by decide +kernel

/-- So MD5's compression function has a collision. -/
example : Spec.Inputs.md5.StepCollision (fun h => ofLeWords [h.1, h.2.1, h.2.2.1, h.2.2.2]) () () wang wang' :=
  md5_collision () () wang wang' (by decide +kernel) (by decide +kernel) (by decide +kernel) (by decide +kernel)

/-- Two objects, on different memory, that print the same. -/
example : ∃ s s' os os' t t', Model.Md5.cls.construct md5Mem = .ok (some s) ∧ Model.Md5.cls.construct ⟨[], List.replicate 64 0x55, 1, 2⟩ = .ok (some s') ∧
    Model.Md5.cls.pr.run ([.absorb (.str wang)] ++ [.hexdigest]) s = .ok (os, t) ∧ Model.Md5.cls.pr.run ([.absorb (.iter wang')] ++ [.hexdigest]) s' = .ok (os', t') ∧
    os.getLast? = os'.getLast? := by
  obtain ⟨s, e, h⟩ := md5_conforms md5Mem rfl
  obtain ⟨s', e', h'⟩ := md5_conforms ⟨[], List.replicate 64 0x55, 1, 2⟩ rfl
  obtain ⟨t, q⟩ := h [.absorb (.str wang), .hexdigest] ⟨show wang.length < 2 ^ 63 by decide +kernel, trivial, trivial⟩
  obtain ⟨t', q'⟩ := h' [.absorb (.iter wang'), .hexdigest] ⟨trivial, trivial, trivial⟩
  exact ⟨s, s', _, _, t, t', e, e', q, q', by decide +kernel⟩

end Digestpp.Properties
