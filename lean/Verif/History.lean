import Verif.Model.Hasher
import Verif.Spec.Api

/-! Words for statements about histories of calls that mention no algorithm: limits a history keeps to, the settings in force after it,
and what a caller sees after it. -/

namespace Digestpp
open Model

/-- What the arguments of the parameter setters of a mixin (algorithm/mixin/*.hpp) are: which parameter, and the string given. -/
class Param (P : Type) where
  kind : P → Nat
  value : P → Bytes

instance : Param Empty := ⟨nofun, nofun⟩
instance : Param CShakeParam := ⟨fun | .functionName _ => 0 | .customization _ => 1, fun | .functionName v | .customization v => v⟩
instance : Param KmacParam := ⟨fun | .customization _ => 0 | .key _ => 1, fun | .customization v | .key v => v⟩
instance : Param CustomizationParam := ⟨fun _ => 0, fun | .customization v => v⟩
instance : Param SaltParam := ⟨fun _ => 0, fun | .salt v => v⟩
instance : Param Blake2Param :=
  ⟨fun | .salt _ => 0 | .personalization _ => 1 | .key _ => 2, fun | .salt v | .personalization v | .key v => v⟩
instance : Param SkeinParam :=
  ⟨fun | .personalization _ => 0 | .nonce _ => 1 | .key _ => 2, fun | .personalization v | .nonce v | .key v => v⟩

/-- What is promised of a class: for which message lengths (in bytes), up to which total output length, whether for `reset(true)`,
which setter arguments are accepted, and whether an empty value given to a setter takes away what was set before (otherwise it leaves
it). -/
structure Limits (P : Type) where
  len : Nat → Prop
  out : Nat → Prop
  clr : Prop
  accepts : P → Bool
  forgets : P → Prop

/-- The history keeps to the limits, when `n` bytes have been absorbed before: pointer ranges are valid memory objects, setter
arguments are shorter than `2^61` bytes, and messages have an allowed length when a digest is asked for. -/
def HashFine {P : Type} [Param P] (L : Limits P) : List (HashOp P) → Nat → Prop
  | [], _ => True
  | .absorb src :: ops, n => src.Valid ∧ HashFine L ops (n + src.contents.length)
  | .digestBuf _ :: ops, n | .digest :: ops, n | .hexdigest :: ops, n => L.len n ∧ HashFine L ops n
  | .reset b :: ops, _ => (b = true → L.clr) ∧ HashFine L ops 0
  | .set p :: ops, n => (Param.value p).length < 2 ^ 61 ∧ HashFine L ops (if L.accepts p then 0 else n)

/-- The same for extendable output functions, when `n` bytes have been absorbed and `k` squeezed before: in addition nothing is absorbed
after squeezing has begun, and every squeeze has a positive length. -/
def XofFine {P : Type} [Param P] (L : Limits P) : List (XofOp P) → Nat → Nat → Prop
  | [], _, _ => True
  | .absorb src :: ops, n, k => src.Valid ∧ k = 0 ∧ XofFine L ops (n + src.contents.length) k
  | .squeezeBuf buf :: ops, n, k =>
    L.len n ∧ 0 < buf.length ∧ buf.length < 2 ^ 61 ∧ L.out (k + buf.length) ∧ XofFine L ops n (k + buf.length)
  | .squeeze m :: ops, n, k | .hexsqueeze m :: ops, n, k => L.len n ∧ 0 < m ∧ m < 2 ^ 61 ∧ L.out (k + m) ∧ XofFine L ops n (k + m)
  | .reset b :: ops, _, _ => (b = true → L.clr) ∧ XofFine L ops 0 0
  | .set p :: ops, n, k =>
    (Param.value p).length < 2 ^ 61 ∧ XofFine L ops (if L.accepts p then 0 else n) (if L.accepts p then 0 else k)

/-- The setter calls since the last `reset(true)`. -/
def HashOp.settings {P : Type} (ops : List (HashOp P)) : List (HashOp P) :=
  ops.foldl (fun acc op => match op with
    | .set p => acc ++ [.set p]
    | .reset true => []
    | _ => acc) []

/-- The setter calls since the last `reset(true)`. -/
def XofOp.settings {P : Type} (ops : List (XofOp P)) : List (XofOp P) :=
  ops.foldl (fun acc op => match op with
    | .set p => acc ++ [.set p]
    | .reset true => []
    | _ => acc) []

/-- Whether a call sets a parameter other than those of kind `k`. -/
def HashOp.otherKind {P : Type} [Param P] (k : Nat) : HashOp P → Bool
  | .set q => Param.kind q != k
  | _ => true

/-- Whether a call sets a parameter other than those of kind `k`. -/
def XofOp.otherKind {P : Type} [Param P] (k : Nat) : XofOp P → Bool
  | .set q => Param.kind q != k
  | _ => true

/-- A call that asks for the digest. -/
def HashOp.IsDigest {P : Type} : HashOp P → Prop
  | .digestBuf _ | .digest | .hexdigest => True
  | _ => False

/-- How many bytes a call squeezes. -/
def XofOp.squeezeLen {P : Type} : XofOp P → Option Nat
  | .squeezeBuf b => some b.length
  | .squeeze n | .hexsqueeze n => some n
  | _ => none

/-- What a caller sees of the calls `post` on an object constructed on `mem` on which the calls `pre` have been made. -/
def Model.HashClass.after (c : HashClass) (mem : c.S) (pre post : List (HashOp c.P)) : Option (List Obs) :=
  (c.trial mem (pre ++ post)).map (·.drop pre.length)

/-- What a caller sees of the calls `post` on an object constructed on `mem` on which the calls `pre` have been made. -/
def Model.XofClass.after (c : XofClass) (mem : c.S) (pre post : List (XofOp c.P)) : Option (List Obs) :=
  (c.trial mem (pre ++ post)).map (·.drop pre.length)

/-- `post` shows the caller the same after `pre` and after `pre'`, on objects constructed on any memory; neither history has undefined
behaviour. -/
def Model.HashClass.Same (c : HashClass) (pre pre' post : List (HashOp c.P)) : Prop :=
  ∀ mem mem', c.Mem mem → c.Mem mem' → ∃ os, os.length = post.length ∧ c.after mem pre post = some os ∧ c.after mem' pre' post = some os

/-- `post` shows the caller the same after `pre` and after `pre'`, on objects constructed on any memory; neither history has undefined
behaviour. -/
def Model.XofClass.Same (c : XofClass) (pre pre' post : List (XofOp c.P)) : Prop :=
  ∀ mem mem', c.Mem mem → c.Mem mem' → ∃ os, os.length = post.length ∧ c.after mem pre post = some os ∧ c.after mem' pre' post = some os

/-- Bytes absorbed and squeezed since the last restart. -/
def posAfter {P : Type} (L : Limits P) : List (XofOp P) → Nat × Nat → Nat × Nat
  | [], n => n
  | .absorb src :: ops, n => posAfter L ops (n.1 + src.contents.length, n.2)
  | .squeezeBuf b :: ops, n => posAfter L ops (n.1, n.2 + b.length)
  | .squeeze k :: ops, n | .hexsqueeze k :: ops, n => posAfter L ops (n.1, n.2 + k)
  | .reset _ :: ops, _ => posAfter L ops (0, 0)
  | .set p :: ops, n => posAfter L ops (if L.accepts p then 0 else n.1, if L.accepts p then 0 else n.2)

/-- For the examples: shows that a concrete history keeps to the limits. -/
macro "fine" : tactic => `(tactic| (repeat' first
  | exact trivial
  | exact fun _ => trivial
  | (show (_ : Nat) < _; decide)
  | (show (_ : Nat) ≤ _; decide)
  | (show (_ : Nat) = _; decide)
  | refine ⟨?_, ?_⟩))

end Digestpp
