import Verif.Proofs.Extension
import Verif.Properties.Md5
import Verif.Properties.Sha1
import Verif.Properties.Sha2
import Verif.Properties.Sm3
import Verif.Properties.Whirlpool

/-! C55: length extension. -/

namespace Digestpp

/-- Whoever sees the digest of a message, and its length, can compute the digest of the message followed by `glue` and any `x`. -/
def Extends (c : Model.HashClass) (glue : Nat → Bytes) (ext : Bytes → Nat → Bytes → Bytes) : Prop :=
  ∀ mem mem' msg x, c.Mem mem → c.Mem mem' → (msg ++ glue msg.length ++ x).length < 2 ^ 63 →
    ∃ d, c.trial mem [.absorb (.ptr msg), .digest] = some [.done, .bytes d] ∧
      c.trial mem' [.absorb (.ptr (msg ++ glue msg.length ++ x)), .digest] = some [.done, .bytes (ext d msg.length x)]

namespace Properties
open Model Spec Spec.Extension

private theorem extends_of {c : HashClass} (hash : Bytes → Bytes) {f : HashFn c.P Unit} (hf : ∀ msg, f.digest f.dflt msg = hash msg)
    (hc : HashConforms c f (Cover.all c.P)) {glue : Nat → Bytes} {ext : Bytes → Nat → Bytes → Bytes}
    (h : ∀ msg x, hash (msg ++ glue msg.length ++ x) = ext (hash msg) msg.length x) : Extends c glue ext := by
  intro mem mem' msg x hm hm' hl
  have run : ∀ mem m, c.Mem mem → m.length < 2 ^ 63 → c.trial mem [.absorb (.ptr m), .digest] = some [.done, .bytes (hash m)] := by
    intro mem m hm hl
    refine (Proofs.hashConforms_trial hc mem hm [.absorb (.ptr m), .digest] ⟨hl, trivial, trivial⟩).trans ?_
    show some [Obs.done, .bytes (f.digest f.dflt ([] ++ m))] = _
    rw [List.nil_append, hf]
  refine ⟨hash msg, run mem msg hm ?_, ?_⟩
  · simp only [List.length_append] at hl; omega
  · rw [run mem' _ hm' hl, h]

/-- **C55**, MD5. -/
theorem md5_extends : Extends Model.Md5.cls (glue 64 le64) Extension.md5 :=
  extends_of Spec.Md5.hash (fun _ => rfl) md5_conforms Proofs.Extension.md5_extend

/-- **C55**, SHA-1. -/
theorem sha1_extends : Extends Model.Sha1.cls (glue 64 be64) Extension.sha1 :=
  extends_of Spec.Sha1.hash (fun _ => rfl) sha1_all_lengths Proofs.Extension.sha1_extend

/-- **C55**, SHA-256. -/
theorem sha256_extends : Extends Model.Sha2.sha256 (glue 64 be64) Extension.sha256 :=
  extends_of _ (fun _ => rfl) sha256_all_lengths Proofs.Extension.sha256_extend

private theorem take512 (h : Spec.Sha2.H8 64) : h.bytes.take (512 / 8) = h.bytes :=
  List.take_of_length_le (by simp [Spec.Sha2.H8.bytes, ofBeWords, Proofs.length_beBytes])

/-- **C55**, SHA-512, with the size given to the constructor. -/
theorem sha512_extends : Extends (Model.Sha2.sha512 512) (glue 128 be128) Extension.sha512 :=
  extends_of _ (fun _ => take512 _) (sha512_all_lengths 512 (by decide) (by decide) (by decide)) Proofs.Extension.sha512_extend

/-- **C55**, SHA-512, with the size as template argument. -/
theorem sha512_static_extends : Extends (Model.Sha2.sha512Static 512) (glue 128 be128) Extension.sha512 :=
  extends_of _ (fun _ => take512 _) (sha512_static_all_lengths 512 (by decide) (by decide) (by decide)) Proofs.Extension.sha512_extend

/-- **C55**, SM3, on machines that reduce shift counts. -/
theorem sm3_extends : Extends (Model.Sm3.cls rotlMasked) (glue 64 be64) Extension.sm3 :=
  extends_of Spec.Sm3.hash (fun _ => rfl) sm3_all_lengths_masked Proofs.Extension.sm3_extend

/-- **C55**, Whirlpool. -/
theorem whirlpool_extends : Extends Model.Whirlpool.cls (glue 64 be256) Extension.whirlpool :=
  extends_of (Spec.Whirlpool.hashWith wrap64) (fun _ => rfl) whirlpool_all_lengths Proofs.Extension.whirlpool_extend

/-- **C55.** In such a class a collision of two messages of the same length goes on with every continuation: after the padding the two
messages get, the same bytes may follow. -/
theorem extends_collision {c : HashClass} {glue : Nat → Bytes} {ext : Bytes → Nat → Bytes → Bytes} (h : Extends c glue ext)
    (mem : c.S) (hm : c.Mem mem) (msg msg' x : Bytes) (hlen : msg.length = msg'.length) (hl : (msg ++ glue msg.length ++ x).length < 2 ^ 63)
    (hd : c.trial mem [.absorb (.ptr msg), .digest] = c.trial mem [.absorb (.ptr msg'), .digest]) :
    c.trial mem [.absorb (.ptr (msg ++ glue msg.length ++ x)), .digest] = c.trial mem [.absorb (.ptr (msg' ++ glue msg'.length ++ x)), .digest] := by
  obtain ⟨d, h1, h2⟩ := h mem mem msg x hm hm hl
  obtain ⟨d', h3, h4⟩ := h mem mem msg' x hm hm (by simpa only [List.length_append, hlen] using hl)
  rw [h1, h3] at hd
  obtain rfl : d = d' := by simpa using hd
  rw [h2, h4, hlen]

/-! The hypotheses can be met. With the MD5 of "abc", known to be `900150983cd24fb0d6963f7d28e17f72`, and the length 3, the digest of a longer
message is computed, and it is the one the class computes from the message itself. -/

/-- The digest of "abc". -/
def md5Abc : Bytes := [0x90, 0x01, 0x50, 0x98, 0x3c, 0xd2, 0x4f, 0xb0, 0xd6, 0x96, 0x3f, 0x7d, 0x28, 0xe1, 0x7f, 0x72]

example : Model.Md5.cls.trial md5Mem [.absorb (.ptr (ascii "abc")), .digest] = some [.done, .bytes md5Abc] := by decide +kernel

example : Model.Md5.cls.trial md5Mem [.absorb (.ptr (ascii "abc" ++ glue 64 le64 3 ++ ascii "x")), .digest]
    = some [.done, .bytes (Extension.md5 md5Abc 3 (ascii "x"))] := by decide +kernel

example : (ascii "abc" ++ glue 64 le64 3).length = 64 := by decide

/-- A class where the digest does not determine the chaining value is not of this kind: for a checksum that shows one bit, no function can
continue. -/
example : ¬ ∃ ext : Bool → Nat → Bytes → Bool, ∀ msg x : Bytes,
    (((msg ++ x).map BitVec.toNat).sum / 2 % 2 == 1) = ext (((msg.map BitVec.toNat).sum / 2 % 2 == 1)) msg.length x := by
  rintro ⟨ext, h⟩
  have h1 := h [0] [1]
  have h2 := h [1] [1]
  exact absurd (h1.trans h2.symm) (by decide)

end Properties
end Digestpp
