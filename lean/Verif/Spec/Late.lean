import Verif.Statements
import Verif.Spec.K12

/-! Data absorbed after squeezing has begun. The standards have no such thing; the library neither rejects it nor documents what it does.
What happens, as long as the data fit into the block buffer: the bytes themselves are lost. -/

namespace Digestpp
namespace Spec

/-- Parameters, message, number of output bytes given or passed over, number of bytes absorbed since squeezing began. -/
structure LateObj (Θ : Type) where
  params : Θ
  msg : Bytes
  squeezed : Nat
  late : Nat

/-- What late bytes do: how many of them may come (`fits`, for an object from which output was taken), and whether every one of them
makes the object pass over a byte of output (`moves`). -/
structure Late (Θ : Type) where
  fits : LateObj Θ → Nat → Prop
  moves : Bool

namespace Late
variable {P Θ : Type} (g : Late Θ) (f : XofFn P Θ)

/-- The effect of `n` late bytes. Which bytes they are does not matter. -/
def lose (n : Nat) (o : LateObj Θ) : LateObj Θ :=
  { o with squeezed := if g.moves then o.squeezed + n else o.squeezed, late := o.late + n }

/-- The bytes the next `n`-byte squeeze gives. -/
def next (n : Nat) (o : LateObj Θ) : Bytes := slice (f.stream o.params o.msg) o.squeezed n

/-- The effect of one call. -/
def step : XofOp P → LateObj Θ → Obs × LateObj Θ
  | .absorb src, o =>
    (.done, if o.squeezed = 0 then { o with msg := o.msg ++ src.contents } else g.lose src.contents.length o)
  | .squeezeBuf buf, o => (.buffer (next f buf.length o), { o with squeezed := o.squeezed + buf.length })
  | .squeeze n, o => (.bytes (next f n o), { o with squeezed := o.squeezed + n })
  | .hexsqueeze n, o => (.text (hex (next f n o)), { o with squeezed := o.squeezed + n })
  | .reset false, o => (.done, ⟨o.params, [], 0, 0⟩)
  | .reset true, _ => (.done, ⟨f.dflt, [], 0, 0⟩)
  | .set p, o =>
    match f.set p o.params with
    | none => (.threw, o)
    | some θ => (.done, ⟨θ, [], 0, 0⟩)

/-- The effect of a history of calls. -/
def run : List (XofOp P) → LateObj Θ → List Obs × LateObj Θ
  | [], o => ([], o)
  | op :: ops, o =>
    let r := g.step f op o
    let rs := run ops r.2
    (r.1 :: rs.1, rs.2)

/-- A newly constructed object. -/
def new : LateObj Θ := ⟨f.dflt, [], 0, 0⟩

/-- The call is covered: as in `Cover.xofOp`, but absorbing after squeezing is allowed while the data fit. -/
def op (c : Cover P Θ) : XofOp P → LateObj Θ → Prop
  | .absorb src, o => src.Valid ∧ (o.squeezed = 0 ∨ g.fits o src.contents.length)
  | .squeezeBuf buf, o => c.adm o.params o.msg ∧ 0 < buf.length ∧ buf.length < 2 ^ 61 ∧ c.out (o.squeezed + buf.length)
  | .squeeze n, o | .hexsqueeze n, o => c.adm o.params o.msg ∧ 0 < n ∧ n < 2 ^ 61 ∧ c.out (o.squeezed + n)
  | .reset b, _ => b = true → c.clr
  | .set p, _ => c.prm p

/-- Every call of the history is covered. -/
def Covered (c : Cover P Θ) : List (XofOp P) → LateObj Θ → Prop
  | [], _ => True
  | op :: ops, o => g.op c op o ∧ Covered c ops (g.step f op o).2

/-- Sponges with `r` bytes of rate: late bytes fit if neither the output already taken nor they complete a block. -/
def sponge (r : Nat) : Late Θ where
  fits := fun o n => 0 < o.squeezed % r ∧ o.squeezed % r + n < r
  moves := true

/-- KangarooTwelve: late bytes fit as long as they would have belonged to the last chunk of the input. Output is not passed over. -/
def k12 : Late Bytes where
  fits := fun o n =>
    ((o.msg ++ o.params ++ K12.lengthEncode o.params.length).length - 1) % 8192 + 1 + o.late + n ≤ 8192
  moves := false

end Late
end Spec

open Model Spec

/-- The class behaves as described by `f` and `g` in every history, late bytes included. -/
def LateConforms (c : XofClass) {Θ : Type} (f : XofFn c.P Θ) (cov : Cover c.P Θ) (g : Late Θ) : Prop :=
  ∀ mem, c.Mem mem → ∃ s, c.construct mem = .ok (some s) ∧
    ∀ ops, g.Covered f cov ops (Late.new f) → ∃ s', c.pr.run ops s = .ok ((g.run f ops (Late.new f)).1, s')

/-- Bytes absorbed after squeezing has begun are lost: other bytes in their place, as many, and the caller sees the same, in the whole
history. -/
def LateLost (c : XofClass) {Θ : Type} (f : XofFn c.P Θ) (cov : Cover c.P Θ) (g : Late Θ) : Prop :=
  ∀ mem, c.Mem mem → ∃ s, c.construct mem = .ok (some s) ∧
    ∀ pre src src' post, g.Covered f cov (pre ++ .absorb src :: post) (Late.new f) → src'.Valid →
      src.contents.length = src'.contents.length → (g.run f pre (Late.new f)).2.squeezed ≠ 0 →
      ∃ obs s1 s2, c.pr.run (pre ++ .absorb src :: post) s = .ok (obs, s1) ∧ c.pr.run (pre ++ .absorb src' :: post) s = .ok (obs, s2)

end Digestpp
