import Verif.Model.Overloads

/-! C68: which function a call selects. -/

namespace Digestpp.Properties
open Spec.Cpp Model.Overloads

theorem isByte_iff (v : Version) (t : Ty) : isByte v t = true ↔ ByteType v t := by
  cases t <;> simp [isByte, ByteType]

theorem converts_iff (t : Ty) : converts t = true ↔ Arithmetic t := by
  cases t <;> simp [converts, Arithmetic]

theorem toSize_iff (a : Arg) : (toSize a).isSome = true ↔ Arithmetic a.ty := by
  unfold toSize Arithmetic
  cases a.ty <;> simp

theorem deduceConstPtr_iff (a : Arg) (t : Ty) : deduceConstPtr a = some t ↔ PointerTo t a := by
  unfold deduceConstPtr PointerTo
  cases a.ty <;> simp [decay]

theorem deducePtr_iff (a : Arg) (t : Ty) : deducePtr a = some (false, t) ↔ PointerToMutable t a := by
  unfold deducePtr PointerToMutable
  cases a.ty <;> simp [decay] <;> grind

theorem decay_iff (a b : Arg) : decay a.ty = decay b.ty ↔ SameWhenPassed a b := by
  unfold SameWhenPassed
  cases a.ty <;> cases b.ty <;> simp [decay] <;> grind

theorem convString_iff (v : Version) (a : Arg) : (convString v a).isSome = true ↔ StringLike v a := by
  unfold convString StringLike PointerTo Arithmetic
  cases a.ty <;> simp <;> grind

theorem readsBytes_iff (a : Arg) : readsBytes a = true ↔ ∃ t, Arithmetic t ∧ IteratorOf t a := by
  unfold readsBytes IteratorOf PointerTo
  cases a.ty <;> simp [decay, converts_iff]

theorem writesBytes_iff (a : Arg) : writesBytes a = true ↔ TakesBytes a := by
  unfold writesBytes TakesBytes PointerToMutable
  obtain ⟨ty, _, _, _⟩ := a
  cases ty with
  | ptr c t => cases c <;> simp [decay, converts_iff]
  | arr c t n => cases c <;> simp [decay, converts_iff]
  | _ => simp [decay, converts_iff]

theorem call_none {α : Type} {cs : List (Candidate α)} {compiles : α → List Arg → Bool} {args : List Arg} (h : viables cs args = []) : call cs compiles args = .noMatch := by
  unfold call
  rw [h]

theorem call_one {α : Type} {cs : List (Candidate α)} {compiles : α → List Arg → Bool} {args : List Arg} {c : Candidate α} {r : List Rank} (h : viables cs args = [(c, r)]) :
    call cs compiles args = if compiles c.name args then .calls c.name else .error c.name := by
  unfold call
  rw [h]
  rfl

theorem absorb_two (v : Version) (a b : Arg) : absorb v [a, b] =
    if ((absorbPointer v).viable [a, b]).isSome then .calls .pointer
    else if decay a.ty = decay b.ty then if readsBytes a then .calls .iterators else .error .iterators else .noMatch := by
  unfold absorb
  cases hp : (absorbPointer v).viable [a, b] with
  | some r =>
    have hd : ¬ decay a.ty = decay b.ty := by
      intro e
      unfold absorbPointer deduceConstPtr toSize at hp
      dsimp only at hp
      rw [e] at hp
      cases hb : b.ty <;> rw [hb] at hp <;> simp [decay] at hp
    rw [call_one (c := absorbPointer v) (r := r) (by simp [viables, hp, absorbArray, absorbBasicString, absorbString, absorbStream, absorbIterators, hd])]
    rfl
  | none =>
    by_cases hd : decay a.ty = decay b.ty
    · rw [call_one (c := absorbIterators) (r := [.exact, .exact]) (by simp [viables, hp, absorbArray, absorbBasicString, absorbString, absorbStream, absorbIterators, hd])]
      simp [absorbIterators, absorbCompiles, hd]
      rfl
    · rw [call_none (by simp [viables, hp, absorbArray, absorbBasicString, absorbString, absorbStream, absorbIterators, hd])]
      simp [hd]

theorem absorb_one (v : Version) (a : Arg) : absorb v [a] =
    match a.ty with
    | .stdArray t _ => if isByte v t then .calls .array else .noMatch
    | .istream t => if isByte v t && a.lvalue && !a.const then .calls .stream else .noMatch
    | .string t => if isByte v t then if t = .char then .calls .string else .calls .basicString else .noMatch
    | _ => if (convString v a).isSome then .calls .string else .noMatch := by
  obtain ⟨ty, c, l, z⟩ := a
  unfold absorb
  cases ty with
  | stdArray t n =>
    cases h : isByte v t
    · rw [call_none (by simp [viables, absorbPointer, absorbArray, absorbBasicString, absorbString, absorbStream, absorbIterators, convString, h])]
      simp [h]
    · rw [call_one (c := absorbArray v) (r := [.exact]) (by simp [viables, absorbPointer, absorbArray, absorbBasicString, absorbString, absorbStream, absorbIterators, convString, h])]
      simp [h, absorbArray, absorbCompiles]
  | istream t =>
    cases h : isByte v t <;> cases l <;> cases c
    case true.true.false =>
      rw [call_one (c := absorbStream v) (r := [.exact]) (by simp [viables, absorbPointer, absorbArray, absorbBasicString, absorbString, absorbStream, absorbIterators, convString, h])]
      simp [h, absorbStream, absorbCompiles]
    all_goals
      rw [call_none (by simp [viables, absorbPointer, absorbArray, absorbBasicString, absorbString, absorbStream, absorbIterators, convString, h])]
      simp [h]
  | string t =>
    by_cases e : t = .char
    · subst e
      rw [call_one (c := absorbString v) (r := [.exact]) (by simp [viables, absorbPointer, absorbArray, absorbBasicString, absorbString, absorbStream, absorbIterators, convString])]
      rfl
    · have hc : convString v ⟨.string t, c, l, z⟩ = none := by
        unfold convString
        cases t <;> simp_all
      cases h : isByte v t
      · rw [call_none (by simp [viables, absorbPointer, absorbArray, absorbBasicString, absorbString, absorbStream, absorbIterators, hc, h])]
        simp [h]
      · rw [call_one (c := absorbBasicString v) (r := [.exact]) (by simp [viables, absorbPointer, absorbArray, absorbBasicString, absorbString, absorbStream, absorbIterators, hc, h, e])]
        simp [absorbBasicString, absorbCompiles, e, h]
  | _ =>
    generalize hc : convString v _ = o
    cases o with
    | none =>
      rw [call_none (by simp [viables, absorbPointer, absorbArray, absorbBasicString, absorbString, absorbStream, absorbIterators, hc])]
      rfl
    | some r =>
      rw [call_one (c := absorbString v) (r := [r]) (by simp [viables, absorbPointer, absorbArray, absorbBasicString, absorbString, absorbStream, absorbIterators, hc])]
      rfl

theorem absorb_many (v : Version) (args : List Arg) (h : args.length ≠ 1) (h' : args.length ≠ 2) : absorb v args = .noMatch := by
  unfold absorb
  apply call_none
  match args, h, h' with
  | [], _, _ => rfl
  | _ :: _ :: _ :: _, _, _ => rfl
/-- The pointer overloads: what their conditions say. -/
theorem pointer_viable (v : Version) (a b : Arg) : ((absorbPointer v).viable [a, b]).isSome = true ↔ ∃ t, ByteType v t ∧ PointerTo t a ∧ Arithmetic b.ty := by
  unfold absorbPointer
  dsimp only
  constructor
  · intro h
    cases e : deduceConstPtr a with
    | none => rw [e] at h; simp at h
    | some t =>
      rw [e] at h
      simp only [Option.bind_eq_bind, Option.bind_some] at h
      by_cases hb : isByte v t = true
      · rw [if_pos hb] at h
        cases hs : toSize b with
        | none => rw [hs] at h; simp at h
        | some r => exact ⟨t, (isByte_iff v t).1 hb, (deduceConstPtr_iff a t).1 e, (toSize_iff b).1 (by rw [hs]; rfl)⟩
      · rw [if_neg hb] at h; simp at h
  · rintro ⟨t, hb, hp, hs⟩
    rw [(deduceConstPtr_iff a t).2 hp]
    simp only [Option.bind_eq_bind, Option.bind_some]
    rw [if_pos ((isByte_iff v t).2 hb)]
    obtain ⟨r, e⟩ := Option.isSome_iff_exists.1 ((toSize_iff b).2 hs)
    rw [e]
    rfl

/-- What is promised of `absorb`: one line for each function. -/
inductive AbsorbCalls (v : Version) : List Arg → Absorb → Prop where
  /-- "Absorbs bytes from a C-style pointer to character buffer" -/
  | pointer {a b t} : ByteType v t → PointerTo t a → Arithmetic b.ty → AbsorbCalls v [a, b] .pointer
  /-- "Absorbs bytes from a C++ style array" -/
  | array {a t n} : ByteType v t → a.ty = .stdArray t n → AbsorbCalls v [a] .array
  /-- "Absorbs bytes from std::basic_string" -/
  | basicString {a t} : ByteType v t → t ≠ .char → a.ty = .string t → AbsorbCalls v [a] .basicString
  /-- "Absorbs bytes from std::string"; also what converts to one -/
  | string {a} : StringLike v a → AbsorbCalls v [a] .string
  /-- "Absorbs bytes from std::istream" -/
  | stream {a t} : ByteType v t → a.ty = .istream t → a.lvalue = true → a.const = false → AbsorbCalls v [a] .stream
  /-- "Absorbs bytes from an iterator sequence" -/
  | iterators {a b t} : Arithmetic t → IteratorOf t a → SameWhenPassed a b → AbsorbCalls v [a, b] .iterators

/-- **C68**: a call of `absorb` calls a function exactly if the table has it. -/
theorem absorb_selects (v : Version) (args : List Arg) (f : Absorb) : absorb v args = .calls f ↔ AbsorbCalls v args f := by
  constructor
  · intro h
    match args, h with
    | [], h => rw [absorb_many v [] (by decide) (by decide)] at h; simp at h
    | [a], h =>
      rw [absorb_one] at h
      split at h
      · rename_i t n e
        split at h
        · rename_i hb
          injection h with h; subst h
          exact .array ((isByte_iff v t).1 hb) e
        · simp at h
      · rename_i t e
        split at h
        · rename_i hb
          injection h with h; subst h
          simp only [Bool.and_eq_true, Bool.not_eq_true'] at hb
          exact .stream ((isByte_iff v t).1 hb.1.1) e hb.1.2 hb.2
        · simp at h
      · rename_i t e
        split at h
        · rename_i hb
          split at h
          · rename_i hc
            injection h with h; subst h; subst hc
            exact .string (.inl e)
          · rename_i hc
            injection h with h; subst h
            exact .basicString ((isByte_iff v t).1 hb) hc e
        · simp at h
      · split at h
        · rename_i hs
          injection h with h; subst h
          exact .string ((convString_iff v a).1 hs)
        · simp at h
    | [a, b], h =>
      rw [absorb_two] at h
      split at h
      · rename_i hp
        injection h with h; subst h
        obtain ⟨t, hb, hp, hs⟩ := (pointer_viable v a b).1 hp
        exact .pointer hb hp hs
      · split at h
        · rename_i hd
          split at h
          · rename_i hr
            injection h with h; subst h
            obtain ⟨t, ht, hi⟩ := (readsBytes_iff a).1 hr
            exact .iterators ht hi ((decay_iff a b).1 hd)
          · simp at h
        · simp at h
    | a :: b :: c :: l, h => rw [absorb_many v _ (by simp) (by simp)] at h; simp at h
  · intro h
    cases h with
    | pointer hb hp hs =>
      rw [absorb_two, if_pos ((pointer_viable v _ _).2 ⟨_, hb, hp, hs⟩)]
    | array hb e =>
      rw [absorb_one, e]
      exact if_pos ((isByte_iff v _).2 hb)
    | basicString hb hc e =>
      rw [absorb_one, e]
      dsimp only
      rw [if_pos ((isByte_iff v _).2 hb), if_neg hc]
    | @string a hs =>
      have hs' := (convString_iff v a).2 hs
      rw [absorb_one]
      split
      · rename_i e
        exfalso
        unfold convString at hs'; rw [e] at hs'; simp at hs'
      · rename_i e
        exfalso
        unfold convString at hs'; rw [e] at hs'; simp at hs'
      · rename_i t e
        by_cases hc : t = .char
        · subst hc
          rfl
        · exfalso
          unfold convString at hs'; rw [e] at hs'; cases t <;> simp_all
      · rw [if_pos hs']
    | stream hb e hl hc =>
      rw [absorb_one, e]
      dsimp only
      rw [if_pos (by rw [(isByte_iff v _).2 hb, hl, hc]; rfl)]
    | @iterators a b t ht hi hd =>
      have hd' := (decay_iff a b).2 hd
      have hn : ¬ ((absorbPointer v).viable [a, b]).isSome = true := by
        intro h
        obtain ⟨t', _, hp, hs⟩ := (pointer_viable v a b).1 h
        unfold PointerTo at hp
        unfold Arithmetic at hs
        rcases hp with ⟨c, e⟩ | ⟨c, n, e⟩ <;> rw [e] at hd' <;> rcases hs with e' | e' | e' | e' | e' | ⟨n, e'⟩ <;> rw [e'] at hd' <;> simp [decay] at hd'
      rw [absorb_two, if_neg hn, if_pos hd', if_pos ((readsBytes_iff a).2 ⟨t, ht, hi⟩)]

/-- **C68**: no call of `absorb` is ambiguous, and the only function whose body can fail to compile is that for iterators. -/
theorem absorb_outcomes (v : Version) (args : List Arg) : absorb v args = .noMatch ∨ absorb v args = .error .iterators ∨ ∃ f, absorb v args = .calls f := by
  match args with
  | [] => exact .inl (absorb_many v [] (by decide) (by decide))
  | [a] =>
    rw [absorb_one]
    split <;> (repeat' split) <;> simp
  | [a, b] =>
    rw [absorb_two]
    (repeat' split) <;> simp
  | a :: b :: c :: l => exact .inl (absorb_many v _ (by simp) (by simp))

/-- **C68**: the function selected is unique. -/
theorem absorb_unique (v : Version) (args : List Arg) (f g : Absorb) (hf : AbsorbCalls v args f) (hg : AbsorbCalls v args g) : f = g := by
  have := ((absorb_selects v args f).2 hf).symm.trans ((absorb_selects v args g).2 hg)
  injection this

/-- Condition of the functions that write to a pointer. -/
theorem mutable_viable (v : Version) (ok : Bool) (a b : Arg) :
    (do let (c, t) ← deducePtr a
        if !c && isByte v t && ok then
          let r ← toSize b
          some [Rank.exact, r]
        else none : Option (List Rank)).isSome = true ↔ ok = true ∧ ∃ t, ByteType v t ∧ PointerToMutable t a ∧ Arithmetic b.ty := by
  constructor
  · intro h
    cases e : deducePtr a with
    | none => rw [e] at h; simp at h
    | some p =>
      obtain ⟨c, t⟩ := p
      rw [e] at h
      simp only [Option.bind_eq_bind, Option.bind_some] at h
      split at h
      · rename_i hb
        simp only [Bool.and_eq_true, Bool.not_eq_true'] at hb
        cases hs : toSize b with
        | none => rw [hs] at h; simp at h
        | some r =>
          obtain ⟨⟨rfl, hb⟩, ho⟩ := hb
          exact ⟨ho, t, (isByte_iff v t).1 hb, (deducePtr_iff a t).1 e, (toSize_iff b).1 (by rw [hs]; rfl)⟩
      · simp at h
  · rintro ⟨ho, t, hb, hp, hs⟩
    rw [(deducePtr_iff a t).2 hp]
    simp only [Option.bind_eq_bind, Option.bind_some]
    rw [if_pos (by rw [(isByte_iff v t).2 hb, ho]; rfl)]
    obtain ⟨r, e⟩ := Option.isSome_iff_exists.1 ((toSize_iff b).2 hs)
    rw [e]
    rfl

/-- A pointer is no number. -/
theorem pointer_not_arithmetic {t : Ty} {a : Arg} (h : PointerToMutable t a) : ¬ Arithmetic a.ty := by
  unfold PointerToMutable at h
  unfold Arithmetic
  rcases h with e | ⟨n, e⟩ <;> rw [e] <;> simp

theorem squeeze_two (v : Version) (x : Bool) (a b : Arg) : squeeze v x [a, b] =
    if ((squeezePointer v x).viable [a, b]).isSome then .calls .pointer
    else if x && (toSize a).isSome then if writesBytes b then .calls .iterator else .error .iterator else .noMatch := by
  unfold squeeze
  have hm := mutable_viable v x a b
  cases hp : (squeezePointer v x).viable [a, b] with
  | some r =>
    obtain ⟨hx, t, _, ht, _⟩ := hm.1 (by show ((squeezePointer v x).viable [a, b]).isSome = true; rw [hp]; rfl)
    have hs : toSize a = none := by
      cases e : toSize a with
      | none => rfl
      | some r => exact absurd ((toSize_iff a).1 (by rw [e]; rfl)) (pointer_not_arithmetic ht)
    rw [call_one (c := squeezePointer v x) (r := r) (by simp [viables, hp, squeezeRawArray, squeezeArray, squeezeIterator, hs])]
    rfl
  | none =>
    cases x
    · rw [call_none (by simp [viables, hp, squeezeRawArray, squeezeArray, squeezeIterator])]
      rfl
    · cases hs : toSize a with
      | none =>
        rw [call_none (by simp [viables, hp, squeezeRawArray, squeezeArray, squeezeIterator, hs])]
        rfl
      | some r =>
        rw [call_one (c := squeezeIterator true) (r := [r, .exact]) (by simp [viables, hp, squeezeRawArray, squeezeArray, squeezeIterator, hs])]
        rfl

theorem squeeze_one (v : Version) (x : Bool) (a : Arg) : squeeze v x [a] =
    match a.ty with
    | .arr c t _ => if !c && a.lvalue && isByte v t && x then .calls .rawArray else .noMatch
    | .stdArray t _ => if isByte v t && a.lvalue && !a.const && x then .calls .array else .noMatch
    | _ => .noMatch := by
  obtain ⟨ty, c, l, z⟩ := a
  unfold squeeze
  cases ty with
  | arr d t n =>
    cases h : isByte v t <;> cases l <;> cases d <;> cases x
    case true.true.false.true =>
      rw [call_one (c := squeezeRawArray v true) (r := [.exact]) (by simp [viables, squeezePointer, squeezeRawArray, squeezeArray, squeezeIterator, h])]
      simp [h, squeezeRawArray, squeezeCompiles]
    all_goals
      rw [call_none (by simp [viables, squeezePointer, squeezeRawArray, squeezeArray, squeezeIterator, h])]
      simp [h]
  | stdArray t n =>
    cases h : isByte v t <;> cases l <;> cases c <;> cases x
    case true.true.false.true =>
      rw [call_one (c := squeezeArray v true) (r := [.exact]) (by simp [viables, squeezePointer, squeezeRawArray, squeezeArray, squeezeIterator, h])]
      simp [h, squeezeArray, squeezeCompiles]
    all_goals
      rw [call_none (by simp [viables, squeezePointer, squeezeRawArray, squeezeArray, squeezeIterator, h])]
      simp [h]
  | _ => exact call_none (by simp [viables, squeezePointer, squeezeRawArray, squeezeArray, squeezeIterator])

theorem squeeze_many (v : Version) (x : Bool) (args : List Arg) (h : args.length ≠ 1) (h' : args.length ≠ 2) : squeeze v x args = .noMatch := by
  unfold squeeze
  apply call_none
  match args, h, h' with
  | [], _, _ => rfl
  | _ :: _ :: _ :: _, _, _ => rfl

/-- What is promised of `squeeze`, in classes that are extendable output functions. -/
inductive SqueezeCalls (v : Version) : List Arg → Squeeze → Prop where
  | pointer {a b t} : ByteType v t → PointerToMutable t a → Arithmetic b.ty → SqueezeCalls v [a, b] .pointer
  | rawArray {a t n} : ByteType v t → a.ty = .arr false t n → a.lvalue = true → SqueezeCalls v [a] .rawArray
  | array {a t n} : ByteType v t → a.ty = .stdArray t n → a.lvalue = true → a.const = false → SqueezeCalls v [a] .array
  | iterator {a b} : Arithmetic a.ty → TakesBytes b → SqueezeCalls v [a, b] .iterator

/-- **C68**: a call of `squeeze` calls a function exactly if the class is an extendable output function and the table has it. -/
theorem squeeze_selects (v : Version) (x : Bool) (args : List Arg) (f : Squeeze) : squeeze v x args = .calls f ↔ x = true ∧ SqueezeCalls v args f := by
  constructor
  · intro h
    match args, h with
    | [], h => rw [squeeze_many v x [] (by decide) (by decide)] at h; simp at h
    | [a], h =>
      rw [squeeze_one] at h
      split at h
      · rename_i c t n e
        split at h
        · rename_i hb
          simp only [Bool.and_eq_true, Bool.not_eq_true'] at hb
          obtain ⟨⟨⟨rfl, hl⟩, hb⟩, hx⟩ := hb
          injection h with h; subst h
          exact ⟨hx, .rawArray ((isByte_iff v t).1 hb) e hl⟩
        · simp at h
      · rename_i t n e
        split at h
        · rename_i hb
          simp only [Bool.and_eq_true, Bool.not_eq_true'] at hb
          obtain ⟨⟨⟨hb, hl⟩, hc⟩, hx⟩ := hb
          injection h with h; subst h
          exact ⟨hx, .array ((isByte_iff v t).1 hb) e hl hc⟩
        · simp at h
      · simp at h
    | [a, b], h =>
      rw [squeeze_two] at h
      split at h
      · rename_i hp
        obtain ⟨hx, t, hb, ht, hs⟩ := (mutable_viable v x a b).1 hp
        injection h with h; subst h
        exact ⟨hx, .pointer hb ht hs⟩
      · split at h
        · rename_i hs
          simp only [Bool.and_eq_true] at hs
          split at h
          · rename_i hw
            injection h with h; subst h
            exact ⟨hs.1, .iterator ((toSize_iff a).1 hs.2) ((writesBytes_iff b).1 hw)⟩
          · simp at h
        · simp at h
    | a :: b :: c :: l, h => rw [squeeze_many v x _ (by simp) (by simp)] at h; simp at h
  · rintro ⟨rfl, h⟩
    cases h with
    | pointer hb ht hs =>
      rw [squeeze_two]
      exact if_pos ((mutable_viable v true _ _).2 ⟨rfl, _, hb, ht, hs⟩)
    | rawArray hb e hl =>
      rw [squeeze_one, e]
      dsimp only
      rw [if_pos (by rw [(isByte_iff v _).2 hb, hl]; rfl)]
    | array hb e hl hc =>
      rw [squeeze_one, e]
      dsimp only
      rw [if_pos (by rw [(isByte_iff v _).2 hb, hl, hc]; rfl)]
    | @iterator a b hs hw =>
      rw [squeeze_two, if_neg, if_pos (by rw [(toSize_iff a).2 hs]; rfl), if_pos ((writesBytes_iff b).2 hw)]
      intro hp
      obtain ⟨_, t, _, ht, _⟩ := (mutable_viable v true a b).1 hp
      exact pointer_not_arithmetic ht hs

/-- **C68**: no call of `squeeze` is ambiguous; only the body of the function for iterators can fail to compile; other classes have no `squeeze`. -/
theorem squeeze_outcomes (v : Version) (x : Bool) (args : List Arg) :
    squeeze v x args = .noMatch ∨ x = true ∧ (squeeze v x args = .error .iterator ∨ ∃ f, squeeze v x args = .calls f) := by
  match args with
  | [] => exact .inl (squeeze_many v x [] (by decide) (by decide))
  | [a] =>
    rw [squeeze_one]
    split
    · split
      · rename_i h; simp_all
      · simp
    · split
      · rename_i h; simp_all
      · simp
    · simp
  | [a, b] =>
    rw [squeeze_two]
    split
    · rename_i h
      exact .inr ⟨((mutable_viable v x a b).1 h).1, .inr ⟨_, rfl⟩⟩
    · split
      · rename_i h
        simp only [Bool.and_eq_true] at h
        split <;> simp [h.1]
      · simp
  | a :: b :: c :: l => exact .inl (squeeze_many v x _ (by simp) (by simp))

theorem digest_two (v : Version) (x : Bool) (a b : Arg) : digest v x [a, b] =
    if ((digestPointer v x).viable [a, b]).isSome then if deducePtr a = some (false, .uchar) then .calls .pointer else .error .pointer else .noMatch := by
  unfold digest
  cases hp : (digestPointer v x).viable [a, b] with
  | some r =>
    rw [call_one (c := digestPointer v x) (r := r) (by simp [viables, hp, digestIterator])]
    simp [digestPointer, digestCompiles]
  | none =>
    rw [call_none (by simp [viables, hp, digestIterator])]
    rfl

theorem digest_one (v : Version) (x : Bool) (a : Arg) : digest v x [a] = if x then .noMatch else if writesBytes a then .calls .iterator else .error .iterator := by
  unfold digest
  cases x
  · rw [call_one (c := digestIterator false) (r := [.exact]) (by simp [viables, digestPointer, digestIterator])]
    rfl
  · exact call_none (by simp [viables, digestPointer, digestIterator])

theorem digest_many (v : Version) (x : Bool) (args : List Arg) (h : args.length ≠ 1) (h' : args.length ≠ 2) : digest v x args = .noMatch := by
  unfold digest
  apply call_none
  match args, h, h' with
  | [], _, _ => rfl
  | _ :: _ :: _ :: _, _, _ => rfl

/-- What is promised of `digest`, in classes that are hash functions: "buf: must be of byte type (char, unsigned char or signed char)". -/
inductive DigestCalls (v : Version) : List Arg → Digest → Prop where
  | pointer {a b t} : ByteType v t → PointerToMutable t a → Arithmetic b.ty → DigestCalls v [a, b] .pointer
  | iterator {a} : TakesBytes a → DigestCalls v [a] .iterator

/-- **C68**, all outcomes of a call of `digest`: a buffer of `char`, `signed char` or `std::byte` selects the function as documented, but then does not compile. -/
theorem digest_outcomes (v : Version) (x : Bool) (args : List Arg) :
    (∀ f, digest v x args = .calls f ↔ x = false ∧ DigestCalls v args f ∧ (f = .pointer → ∃ a b, args = [a, b] ∧ PointerToMutable .uchar a)) ∧
    (digest v x args = .error .pointer ↔ x = false ∧ DigestCalls v args .pointer ∧ ¬ ∃ a b, args = [a, b] ∧ PointerToMutable .uchar a) ∧ digest v x args ≠ .ambiguous := by
  match args with
  | [] =>
    rw [digest_many v x [] (by decide) (by decide)]
    refine ⟨fun f => ⟨fun h => by simp at h, fun h => by cases h.2.1⟩, ⟨fun h => by simp at h, fun h => by cases h.2.1⟩, by simp⟩
  | [a] =>
    rw [digest_one]
    cases x with
    | true => exact ⟨fun f => ⟨fun h => by simp at h, fun h => by cases h.1⟩, ⟨fun h => by simp at h, fun h => by cases h.1⟩, by simp⟩
    | false =>
      refine ⟨fun f => ⟨fun h => ?_, fun h => ?_⟩, ⟨fun h => ?_, fun h => by cases h.2.1⟩, ?_⟩
      · simp only [Bool.false_eq_true, if_false] at h
        split at h
        · rename_i hw
          injection h with h; subst h
          exact ⟨rfl, .iterator ((writesBytes_iff a).1 hw), fun e => by simp at e⟩
        · simp at h
      · cases h.2.1 with
        | iterator hw =>
          simp only [Bool.false_eq_true, if_false]
          exact if_pos ((writesBytes_iff a).2 hw)
      · simp only [Bool.false_eq_true, if_false] at h
        split at h <;> simp at h
      · simp only [Bool.false_eq_true, if_false]
        split <;> simp
  | [a, b] =>
    rw [digest_two]
    have hm := mutable_viable v (!x) a b
    by_cases hp : ((digestPointer v x).viable [a, b]).isSome = true
    · rw [if_pos hp]
      obtain ⟨hx, t, hb, ht, hs⟩ := hm.1 hp
      have hx : x = false := by simpa using hx
      by_cases hu : deducePtr a = some (false, .uchar)
      · rw [if_pos hu]
        have hu' := (deducePtr_iff a .uchar).1 hu
        refine ⟨fun f => ⟨fun h => ?_, fun h => ?_⟩, ⟨fun h => by simp at h, fun h => absurd ⟨a, b, rfl, hu'⟩ h.2.2⟩, by simp⟩
        · injection h with h; subst h
          exact ⟨hx, .pointer hb ht hs, fun _ => ⟨a, b, rfl, hu'⟩⟩
        · cases h.2.1; rfl
      · rw [if_neg hu]
        have hn : ¬ ∃ c d, [a, b] = [c, d] ∧ PointerToMutable .uchar c := by
          rintro ⟨c, d, e, h⟩
          simp only [List.cons.injEq] at e
          rw [← e.1] at h
          exact hu ((deducePtr_iff a .uchar).2 h)
        refine ⟨fun f => ⟨fun h => by simp at h, fun h => ?_⟩, ⟨fun _ => ⟨hx, .pointer hb ht hs, hn⟩, fun _ => rfl⟩, by simp⟩
        cases h.2.1
        exact absurd (h.2.2 rfl) hn
    · rw [if_neg hp]
      have hn : ∀ f, ¬ (x = false ∧ DigestCalls v [a, b] f) := by
        rintro f ⟨hx, h⟩
        cases h with
        | pointer hb ht hs => exact hp (hm.2 ⟨by rw [hx]; rfl, _, hb, ht, hs⟩)
      exact ⟨fun f => ⟨fun h => by simp at h, fun h => absurd ⟨h.1, h.2.1⟩ (hn f)⟩, ⟨fun h => by simp at h, fun h => absurd ⟨h.1, h.2.1⟩ (hn _)⟩, by simp⟩
  | a :: b :: c :: l =>
    rw [digest_many v x _ (by simp) (by simp)]
    refine ⟨fun f => ⟨fun h => by simp at h, fun h => by cases h.2.1⟩, ⟨fun h => by simp at h, fun h => by cases h.2.1⟩, by simp⟩

/-- **C68 is false for `digest`**: `char buf[64]; sha512().digest(buf, sizeof(buf))`, as documented, does not compile. -/
theorem digest_char_buffer : ∃ v args f, DigestCalls v args f ∧ digest v false args = .error f :=
  ⟨⟨false, false⟩, [{ ty := .arr false .char 64 }, { ty := .size, lvalue := false }], .pointer, .pointer (.inl rfl) (.inr ⟨64, rfl⟩) (.inr (.inr (.inr (.inr (.inl rfl))))), by decide⟩

/-- **C68** for `digest`, partial: with elements of type `unsigned char` every documented call compiles. What is missing: the other byte types, for which `digest_outcomes` proves the contrary. -/
theorem digest_selects_partial (v : Version) (args : List Arg) (f : Digest) (h : DigestCalls v args f) (hu : f = .pointer → ∃ a b, args = [a, b] ∧ PointerToMutable .uchar a) :
    digest v false args = .calls f := ((digest_outcomes v false args).1 f).2 ⟨rfl, h, hu⟩

theorem setter_two (v : Version) (a b : Arg) : setter v [a, b] = if ((setterPointer v).viable [a, b]).isSome then .calls .pointer else .noMatch := by
  unfold setter
  cases hp : (setterPointer v).viable [a, b] with
  | some r =>
    rw [call_one (c := setterPointer v) (r := r) (by simp [viables, hp, setterString])]
    rfl
  | none =>
    rw [call_none (by simp [viables, hp, setterString])]
    rfl

theorem setter_one (v : Version) (a : Arg) : setter v [a] = if (convString v a).isSome then .calls .string else .noMatch := by
  unfold setter
  cases hs : convString v a with
  | some r =>
    rw [call_one (c := setterString v) (r := [r]) (by simp [viables, hs, setterString, setterPointer])]
    rfl
  | none =>
    rw [call_none (by simp [viables, hs, setterString, setterPointer])]
    rfl

/-- What is promised of the setters. -/
inductive SetterCalls (v : Version) : List Arg → Setter → Prop where
  | string {a} : StringLike v a → SetterCalls v [a] .string
  | pointer {a b t} : ByteType v t → PointerTo t a → Arithmetic b.ty → SetterCalls v [a, b] .pointer

/-- **C68**: a call of a setter calls a function exactly if the table has it; otherwise there is no match. -/
theorem setter_selects (v : Version) (args : List Arg) : (∀ f, setter v args = .calls f ↔ SetterCalls v args f) ∧ ((∀ f, ¬ SetterCalls v args f) → setter v args = .noMatch) := by
  match args with
  | [] =>
    have e : setter v [] = .noMatch := call_none rfl
    rw [e]
    exact ⟨fun f => ⟨fun h => by simp at h, fun h => by cases h⟩, fun _ => rfl⟩
  | [a] =>
    rw [setter_one]
    by_cases h : (convString v a).isSome = true
    · rw [if_pos h]
      refine ⟨fun f => ⟨fun e => ?_, fun e => ?_⟩, fun e => absurd (.string ((convString_iff v a).1 h)) (e .string)⟩
      · injection e with e; subst e
        exact .string ((convString_iff v a).1 h)
      · cases e; rfl
    · rw [if_neg h]
      refine ⟨fun f => ⟨fun e => by simp at e, fun e => ?_⟩, fun _ => rfl⟩
      cases e with
      | string hs => exact absurd ((convString_iff v a).2 hs) h
  | [a, b] =>
    rw [setter_two]
    by_cases h : ((setterPointer v).viable [a, b]).isSome = true
    · rw [if_pos h]
      obtain ⟨t, hb, hp, hs⟩ := (pointer_viable v a b).1 h
      refine ⟨fun f => ⟨fun e => ?_, fun e => ?_⟩, fun e => absurd (.pointer hb hp hs) (e .pointer)⟩
      · injection e with e; subst e
        exact .pointer hb hp hs
      · cases e; rfl
    · rw [if_neg h]
      refine ⟨fun f => ⟨fun e => by simp at e, fun e => ?_⟩, fun _ => rfl⟩
      cases e with
      | pointer hb hp hs => exact absurd ((pointer_viable v a b).2 ⟨_, hb, hp, hs⟩) h
  | a :: b :: c :: l =>
    have e : setter v (a :: b :: c :: l) = .noMatch := call_none rfl
    rw [e]
    exact ⟨fun f => ⟨fun h => by simp at h, fun h => by cases h⟩, fun _ => rfl⟩

end Digestpp.Properties
