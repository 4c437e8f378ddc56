import Verif.Statements

/-! Calls of `squeeze` with length zero. The standards have no such thing; a caller expects it to do nothing. What the classes do
instead is described here by a position on a line of bytes: in front of the output stream there may be bytes (`lead`) that an object
never gives unless its first squeeze has length zero. -/

namespace Digestpp
namespace Spec

/-- What squeezes of length zero do: the bytes in front of the stream, the position an object is at after a first squeeze of length
zero, and the position after a further one. -/
structure Gap (Θ : Type) where
  lead : Θ → Bytes → Bytes
  start : Θ → Bytes → Nat
  skip : Nat → Nat

/-- Parameters, message, and the position on the line once squeezing has begun. -/
structure GapObj (Θ : Type) where
  params : Θ
  msg : Bytes
  pos : Option Nat

namespace Gap
variable {P Θ : Type} (g : Gap Θ) (f : XofFn P Θ)

/-- The bytes in front, then the stream. -/
def line (θ : Θ) (msg : Bytes) (j : Nat) : Byte :=
  if j < (g.lead θ msg).length then (g.lead θ msg).getD j 0 else f.stream θ msg (j - (g.lead θ msg).length)

/-- Where the next byte comes from; squeezes of positive length begin with the stream. -/
def here (o : GapObj Θ) : Nat := o.pos.getD (g.lead o.params o.msg).length

/-- The bytes the next `n`-byte squeeze gives. -/
def next (n : Nat) (o : GapObj Θ) : Bytes := slice (g.line f o.params o.msg) (g.here o) n

/-- The position after a squeeze of `n` bytes. -/
def after (n : Nat) (o : GapObj Θ) : Nat :=
  if n = 0 then
    match o.pos with
    | none => g.start o.params o.msg
    | some q => g.skip q
  else g.here o + n

/-- The effect of one call. -/
def step : XofOp P → GapObj Θ → Obs × GapObj Θ
  | .absorb src, o => (.done, { o with msg := o.msg ++ src.contents })
  | .squeezeBuf buf, o => (.buffer (g.next f buf.length o), { o with pos := some (g.after buf.length o) })
  | .squeeze n, o => (.bytes (g.next f n o), { o with pos := some (g.after n o) })
  | .hexsqueeze n, o => (.text (hex (g.next f n o)), { o with pos := some (g.after n o) })
  | .reset false, o => (.done, { o with msg := [], pos := none })
  | .reset true, _ => (.done, ⟨f.dflt, [], none⟩)
  | .set p, o =>
    match f.set p o.params with
    | none => (.threw, o)
    | some θ => (.done, ⟨θ, [], none⟩)

/-- The effect of a history of calls. -/
def run : List (XofOp P) → GapObj Θ → List Obs × GapObj Θ
  | [], o => ([], o)
  | op :: ops, o =>
    let r := g.step f op o
    let rs := run ops r.2
    (r.1 :: rs.1, rs.2)

/-- A newly constructed object. -/
def new : GapObj Θ := ⟨f.dflt, [], none⟩

/-- The call is covered: as before, but squeezing into a buffer of length zero is allowed. -/
def op (c : Cover P Θ) : XofOp P → GapObj Θ → Prop
  | .absorb src, o => src.Valid ∧ o.pos = none
  | .squeezeBuf buf, o =>
    c.adm o.params o.msg ∧ buf.length < 2 ^ 61 ∧ c.out (g.here o + buf.length - (g.lead o.params o.msg).length)
  | .squeeze n, o | .hexsqueeze n, o =>
    c.adm o.params o.msg ∧ 0 < n ∧ n < 2 ^ 61 ∧ c.out (g.here o + n - (g.lead o.params o.msg).length)
  | .reset b, _ => b = true → c.clr
  | .set p, _ => c.prm p

/-- Every call of the history is covered. -/
def Covered (c : Cover P Θ) : List (XofOp P) → GapObj Θ → Prop
  | [], _ => True
  | op :: ops, o => g.op c op o ∧ Covered c ops (g.step f op o).2

end Gap
end Spec

open Model Spec

/-- The class behaves as described by `f` and `g` in every history, squeezes of length zero included. -/
def GapConforms (c : XofClass) {Θ : Type} (f : XofFn c.P Θ) (cov : Cover c.P Θ) (g : Gap Θ) : Prop :=
  ∀ mem, c.Mem mem → ∃ s, c.construct mem = .ok (some s) ∧
    ∀ ops, g.Covered f cov ops (Gap.new f) → ∃ s', c.pr.run ops s = .ok ((g.run f ops (Gap.new f)).1, s')

/-- A squeeze of length zero, at any point of the life of an object, changes no later output. -/
def EmptySqueezeNeutral (c : XofClass) : Prop :=
  ∀ mem, c.Mem mem → ∀ s, c.construct mem = .ok (some s) → ∀ before o1 s1, c.pr.run before s = .ok (o1, s1) →
    ∀ o2 s2, c.pr.step (.squeezeBuf []) s1 = .ok (o2, s2) →
    ∀ later o3 s3, c.pr.run later s1 = .ok (o3, s3) → ∃ s4, c.pr.run later s2 = .ok (o3, s4)

end Digestpp
