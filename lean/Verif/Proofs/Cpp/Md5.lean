import Verif.Cpp.Src.Md5
import Verif.Proofs.Cpp.Steps
import Verif.Proofs.Locals.Sha1

/-! C71, MD5. -/

namespace Digestpp.Cpp.Md5
open Src Src.Md5
open Model (loop rd wr upd rd32 md5_K md5_S rotlChecked)
attribute [local irreducible] eval exec block

variable {N : Nat} {ext : Nat → Val → Val → Env → Option Env}

/-- Variables and arrays in the loop over the blocks. -/
def vs (p o n blk : Nat) (more : List Val) : List Val :=
  .ptr p o 1 :: .u64 (BitVec.ofNat 64 n) :: .ptr p (o + 64 * blk) 4 :: .u64 (BitVec.ofNat 64 blk) :: more

theorem vs_succ (p o n blk : Nat) : vs p o n (blk + 1) [] =
    [.ptr p o 1, .u64 (BitVec.ofNat 64 n), .ptr p (o + 64 * blk + 4 * 16) 4, .u64 (BitVec.ofNat 64 blk + BitVec.ofInt 64 1)] := by
  rw [vs, BitVec.ofNat_add, show o + 64 * (blk + 1) = o + 64 * blk + 4 * 16 by omega]
  rfl

def ar (data m : Bytes) (H : List (BitVec 32)) : List Arr := [.a8 data, .a8 m, .a32 H]

/-- Two ways of writing an entry of the table of shifts. -/
theorem shifts : ∀ r, r < 64 → (BitVec.setWidth 32 ((md5_S.map (BitVec.ofNat 8)).getD r 0)).toNat = md5_S.getD r 0 := by decide +kernel

theorem rot {r : Nat} {x y : BitVec 32} (hr : r < 64) (h : rotlChecked x (md5_S.getD r 0) = .ok y) (E : Env) :
    eval E rotate_left [.u32 x, .u32 (BitVec.setWidth 32 ((md5_S.map (BitVec.ofNat 8)).getD r 0))] = some [.u32 y] := by
  unfold rotlChecked at h
  split at h
  · rename_i hc
    rw [← Except.ok.inj h, ← shifts r hr] at *
    exact ev_rotl32 hc
  · cases h

theorem load_at {src : Bytes} {o blk k : Nat} {i : Int} {x : BitVec 32} (h : rd32 (src.drop o) (blk * 16 + k) = .ok x) (hi : i = k) :
    load (.a8 src) 4 (o + 64 * blk + 4 * i.toNat) = some (.u32 x) := load_of_rd32 h (by omega)

theorem lenK : md5_K.length = 64 := by decide
theorem lenS : (md5_S.map (BitVec.ofNat 8)).length = 64 := by decide

theorem inv_f {r : Nat} {a b c d y : BitVec 32} {data : Bytes} {o : Nat} (h : Model.Locals.Md5.roundf r a b c d data o = .ok y) :
    r < 64 ∧ ∃ m x, rd32 data (o + r) = .ok m ∧ rotlChecked (a + (d ^^^ (b &&& (c ^^^ d))) + md5_K.getD r 0 + m) (md5_S.getD r 0) = .ok x ∧ y = b + x := by
  obtain ⟨k, hk, h⟩ := then_ok h
  obtain ⟨m, hm, h⟩ := then_ok h
  obtain ⟨s, hs, h⟩ := then_ok h
  obtain ⟨x, hx, hy⟩ := then_ok h
  obtain ⟨hr, rfl⟩ := rd_inv 0 hk
  obtain ⟨_, rfl⟩ := rd_inv 0 hs
  exact ⟨hr, m, x, hm, hx, (Except.ok.inj hy).symm⟩

theorem inv_g {r : Nat} {a b c d y : BitVec 32} {data : Bytes} {o : Nat} (h : Model.Locals.Md5.roundg r a b c d data o = .ok y) :
    r < 64 ∧ ∃ m x, rd32 data (o + (5 * r + 1) % 16) = .ok m ∧ rotlChecked (a + (c ^^^ (d &&& (b ^^^ c))) + md5_K.getD r 0 + m) (md5_S.getD r 0) = .ok x ∧ y = b + x := by
  obtain ⟨k, hk, h⟩ := then_ok h
  obtain ⟨m, hm, h⟩ := then_ok h
  obtain ⟨s, hs, h⟩ := then_ok h
  obtain ⟨x, hx, hy⟩ := then_ok h
  obtain ⟨hr, rfl⟩ := rd_inv 0 hk
  obtain ⟨_, rfl⟩ := rd_inv 0 hs
  exact ⟨hr, m, x, hm, hx, (Except.ok.inj hy).symm⟩

theorem inv_h {r : Nat} {a b c d y : BitVec 32} {data : Bytes} {o : Nat} (h : Model.Locals.Md5.roundh r a b c d data o = .ok y) :
    r < 64 ∧ ∃ m x, rd32 data (o + (3 * r + 5) % 16) = .ok m ∧ rotlChecked (a + (b ^^^ c ^^^ d) + md5_K.getD r 0 + m) (md5_S.getD r 0) = .ok x ∧ y = b + x := by
  obtain ⟨k, hk, h⟩ := then_ok h
  obtain ⟨m, hm, h⟩ := then_ok h
  obtain ⟨s, hs, h⟩ := then_ok h
  obtain ⟨x, hx, hy⟩ := then_ok h
  obtain ⟨hr, rfl⟩ := rd_inv 0 hk
  obtain ⟨_, rfl⟩ := rd_inv 0 hs
  exact ⟨hr, m, x, hm, hx, (Except.ok.inj hy).symm⟩

theorem inv_i {r : Nat} {a b c d y : BitVec 32} {data : Bytes} {o : Nat} (h : Model.Locals.Md5.roundi r a b c d data o = .ok y) :
    r < 64 ∧ ∃ m x, rd32 data (o + (7 * r) % 16) = .ok m ∧ rotlChecked (a + (c ^^^ (b ||| ~~~d)) + md5_K.getD r 0 + m) (md5_S.getD r 0) = .ok x ∧ y = b + x := by
  obtain ⟨k, hk, h⟩ := then_ok h
  obtain ⟨m, hm, h⟩ := then_ok h
  obtain ⟨s, hs, h⟩ := then_ok h
  obtain ⟨x, hx, hy⟩ := then_ok h
  obtain ⟨hr, rfl⟩ := rd_inv 0 hk
  obtain ⟨_, rfl⟩ := rd_inv 0 hs
  exact ⟨hr, m, x, hm, hx, (Except.ok.inj hy).symm⟩

theorem get_in {L : List Val} {i : Nat} {v : Val} (a b : Val) (h : L[i]? = some v) : (L ++ [a] ++ [b])[i]? = some v := by
  obtain ⟨hi, _⟩ := List.getElem?_eq_some_iff.1 h
  rw [List.getElem?_append_left (by rw [List.length_append]; omega), List.getElem?_append_left hi, h]

theorem set_in {L : List Val} {i : Nat} {v : Val} (a b x : Val) (h : L[i]? = some v) : ((L ++ [a] ++ [b]).set i x).take L.length = L.set i x := by
  obtain ⟨hi, _⟩ := List.getElem?_eq_some_iff.1 h
  rw [List.append_assoc, List.set_append_left _ _ hi, List.take_left' (List.length_set ..)]

theorem call_f {L : List Val} {A : List Arr} {r sa sb sc sd p q : Nat} {a b c d m x : BitVec 32} {src : Bytes} (hL : L.length = 8) (h2 : L[2]? = some (.ptr p q 4))
    (ha : L[sa]? = some (.u32 a)) (hb : L[sb]? = some (.u32 b)) (hc : L[sc]? = some (.u32 c)) (hd : L[sd]? = some (.u32 d)) (hA : A[p]? = some (.a8 src)) (hr : r < 64)
    (hm : load (.a8 src) 4 (q + 4 * ((r : Int)).toNat) = some (.u32 m))
    (hx : ∀ E, eval E rotate_left [.u32 (a + (d ^^^ (b &&& (c ^^^ d))) + md5_K.getD r 0 + m), .u32 (BitVec.setWidth 32 ((md5_S.map (BitVec.ofNat 8)).getD r 0))] = some [.u32 x]) :
    exec N ext (roundf 8 (.lit (.i32 r)) sa sb sc sd (.var 2)) ⟨L, A⟩ = some ⟨L.set sa (.u32 (b + x)), A⟩ := by
  have lk := lenK
  have ls := lenS
  have ga := get_in (.i32 r) (.ptr p q 4) ha
  have gb := get_in (.i32 r) (.ptr p q 4) hb
  have gc := get_in (.i32 r) (.ptr p q 4) hc
  have gd := get_in (.i32 r) (.ptr p q 4) hd
  have gs := set_in (.i32 r) (.ptr p q 4) (.u32 (b + x)) ha
  have g2 : (L ++ [.i32 r])[2]? = some (.ptr p q 4) := by rw [List.getElem?_append_left (by omega), h2]
  have g8 : (L ++ [.i32 r] ++ [.ptr p q 4])[8 + 0]? = some (.i32 r) := by
    rw [List.getElem?_append_left (by rw [List.length_append, hL]; exact Nat.le_of_ble_eq_true rfl), List.getElem?_append_right (by omega), hL]
    rfl
  have g9 : (L ++ [.i32 r] ++ [.ptr p q 4])[8 + 1]? = some (.ptr p q 4) := by
    rw [List.getElem?_append_right (by rw [List.length_append, hL]; exact Nat.le_of_ble_eq_true rfl), List.length_append, hL]
    rfl
  clear ha hb hc hd h2
  apply st_scope
  · run
  · exact gs

theorem call_g {L : List Val} {A : List Arr} {r sa sb sc sd p q : Nat} {a b c d m x : BitVec 32} {src : Bytes} (hL : L.length = 8) (h2 : L[2]? = some (.ptr p q 4))
    (ha : L[sa]? = some (.u32 a)) (hb : L[sb]? = some (.u32 b)) (hc : L[sc]? = some (.u32 c)) (hd : L[sd]? = some (.u32 d)) (hA : A[p]? = some (.a8 src)) (hr : r < 64)
    (hm : load (.a8 src) 4 (q + 4 * ((5 * (r : Int) + 1) % 16).toNat) = some (.u32 m))
    (hx : ∀ E, eval E rotate_left [.u32 (a + (c ^^^ (d &&& (b ^^^ c))) + md5_K.getD r 0 + m), .u32 (BitVec.setWidth 32 ((md5_S.map (BitVec.ofNat 8)).getD r 0))] = some [.u32 x]) :
    exec N ext (roundg 8 (.lit (.i32 r)) sa sb sc sd (.var 2)) ⟨L, A⟩ = some ⟨L.set sa (.u32 (b + x)), A⟩ := by
  have lk := lenK
  have ls := lenS
  have ga := get_in (.i32 r) (.ptr p q 4) ha
  have gb := get_in (.i32 r) (.ptr p q 4) hb
  have gc := get_in (.i32 r) (.ptr p q 4) hc
  have gd := get_in (.i32 r) (.ptr p q 4) hd
  have gs := set_in (.i32 r) (.ptr p q 4) (.u32 (b + x)) ha
  have g2 : (L ++ [.i32 r])[2]? = some (.ptr p q 4) := by rw [List.getElem?_append_left (by omega), h2]
  have g8 : (L ++ [.i32 r] ++ [.ptr p q 4])[8 + 0]? = some (.i32 r) := by
    rw [List.getElem?_append_left (by rw [List.length_append, hL]; exact Nat.le_of_ble_eq_true rfl), List.getElem?_append_right (by omega), hL]
    rfl
  have g9 : (L ++ [.i32 r] ++ [.ptr p q 4])[8 + 1]? = some (.ptr p q 4) := by
    rw [List.getElem?_append_right (by rw [List.length_append, hL]; exact Nat.le_of_ble_eq_true rfl), List.length_append, hL]
    rfl
  clear ha hb hc hd h2
  apply st_scope
  · run
  · exact gs

theorem call_h {L : List Val} {A : List Arr} {r sa sb sc sd p q : Nat} {a b c d m x : BitVec 32} {src : Bytes} (hL : L.length = 8) (h2 : L[2]? = some (.ptr p q 4))
    (ha : L[sa]? = some (.u32 a)) (hb : L[sb]? = some (.u32 b)) (hc : L[sc]? = some (.u32 c)) (hd : L[sd]? = some (.u32 d)) (hA : A[p]? = some (.a8 src)) (hr : r < 64)
    (hm : load (.a8 src) 4 (q + 4 * ((3 * (r : Int) + 5) % 16).toNat) = some (.u32 m))
    (hx : ∀ E, eval E rotate_left [.u32 (a + (b ^^^ c ^^^ d) + md5_K.getD r 0 + m), .u32 (BitVec.setWidth 32 ((md5_S.map (BitVec.ofNat 8)).getD r 0))] = some [.u32 x]) :
    exec N ext (roundh 8 (.lit (.i32 r)) sa sb sc sd (.var 2)) ⟨L, A⟩ = some ⟨L.set sa (.u32 (b + x)), A⟩ := by
  have lk := lenK
  have ls := lenS
  have ga := get_in (.i32 r) (.ptr p q 4) ha
  have gb := get_in (.i32 r) (.ptr p q 4) hb
  have gc := get_in (.i32 r) (.ptr p q 4) hc
  have gd := get_in (.i32 r) (.ptr p q 4) hd
  have gs := set_in (.i32 r) (.ptr p q 4) (.u32 (b + x)) ha
  have g2 : (L ++ [.i32 r])[2]? = some (.ptr p q 4) := by rw [List.getElem?_append_left (by omega), h2]
  have g8 : (L ++ [.i32 r] ++ [.ptr p q 4])[8 + 0]? = some (.i32 r) := by
    rw [List.getElem?_append_left (by rw [List.length_append, hL]; exact Nat.le_of_ble_eq_true rfl), List.getElem?_append_right (by omega), hL]
    rfl
  have g9 : (L ++ [.i32 r] ++ [.ptr p q 4])[8 + 1]? = some (.ptr p q 4) := by
    rw [List.getElem?_append_right (by rw [List.length_append, hL]; exact Nat.le_of_ble_eq_true rfl), List.length_append, hL]
    rfl
  clear ha hb hc hd h2
  apply st_scope
  · run
  · exact gs

theorem call_i {L : List Val} {A : List Arr} {r sa sb sc sd p q : Nat} {a b c d m x : BitVec 32} {src : Bytes} (hL : L.length = 8) (h2 : L[2]? = some (.ptr p q 4))
    (ha : L[sa]? = some (.u32 a)) (hb : L[sb]? = some (.u32 b)) (hc : L[sc]? = some (.u32 c)) (hd : L[sd]? = some (.u32 d)) (hA : A[p]? = some (.a8 src)) (hr : r < 64)
    (hm : load (.a8 src) 4 (q + 4 * ((7 * (r : Int)) % 16).toNat) = some (.u32 m))
    (hx : ∀ E, eval E rotate_left [.u32 (a + (c ^^^ (b ||| ~~~d)) + md5_K.getD r 0 + m), .u32 (BitVec.setWidth 32 ((md5_S.map (BitVec.ofNat 8)).getD r 0))] = some [.u32 x]) :
    exec N ext (roundi 8 (.lit (.i32 r)) sa sb sc sd (.var 2)) ⟨L, A⟩ = some ⟨L.set sa (.u32 (b + x)), A⟩ := by
  have lk := lenK
  have ls := lenS
  have ga := get_in (.i32 r) (.ptr p q 4) ha
  have gb := get_in (.i32 r) (.ptr p q 4) hb
  have gc := get_in (.i32 r) (.ptr p q 4) hc
  have gd := get_in (.i32 r) (.ptr p q 4) hd
  have gs := set_in (.i32 r) (.ptr p q 4) (.u32 (b + x)) ha
  have g2 : (L ++ [.i32 r])[2]? = some (.ptr p q 4) := by rw [List.getElem?_append_left (by omega), h2]
  have g8 : (L ++ [.i32 r] ++ [.ptr p q 4])[8 + 0]? = some (.i32 r) := by
    rw [List.getElem?_append_left (by rw [List.length_append, hL]; exact Nat.le_of_ble_eq_true rfl), List.getElem?_append_right (by omega), hL]
    rfl
  have g9 : (L ++ [.i32 r] ++ [.ptr p q 4])[8 + 1]? = some (.ptr p q 4) := by
    rw [List.getElem?_append_right (by rw [List.length_append, hL]; exact Nat.le_of_ble_eq_true rfl), List.length_append, hL]
    rfl
  clear ha hb hc hd h2
  apply st_scope
  · run
  · exact gs

theorem four_f {p o n blk r : Nat} {data m src : Bytes} {H : List (BitVec 32)} {v v' : Model.Md5.Vars} {s : Stmt} {rest : List Stmt} {E' : Env} (hs : Src data m p src)
    (h : Model.Locals.Md5.four Model.Locals.Md5.roundf (src.drop o) (blk * 16) v r = .ok v')
    (hE : exec N ext (block (s :: rest)) ⟨vs p o n blk [.u32 v'.1, .u32 v'.2.1, .u32 v'.2.2.1, .u32 v'.2.2.2], ar data m H⟩ = some E') :
    exec N ext (block (roundf 8 (.lit (.i32 r)) 4 5 6 7 (.var 2) ::
      roundf 8 (.lit (.i32 ((r + 1 : Nat) : Int))) 7 4 5 6 (.var 2) ::
      roundf 8 (.lit (.i32 ((r + 2 : Nat) : Int))) 6 7 4 5 (.var 2) ::
      roundf 8 (.lit (.i32 ((r + 3 : Nat) : Int))) 5 6 7 4 (.var 2) :: s :: rest))
      ⟨vs p o n blk [.u32 v.1, .u32 v.2.1, .u32 v.2.2.1, .u32 v.2.2.2], ar data m H⟩ = some E' := by
  obtain ⟨a, b, c, d⟩ := v
  obtain ⟨a1, h1, h⟩ := then_ok h
  obtain ⟨d1, h2, h⟩ := then_ok h
  obtain ⟨c1, h3, h⟩ := then_ok h
  obtain ⟨b1, h4, hv⟩ := then_ok h
  obtain rfl := Except.ok.inj hv
  obtain ⟨r0, m0, x0, l0, t0, rfl⟩ := inv_f h1
  obtain ⟨r1, m1, x1, l1, t1, rfl⟩ := inv_f h2
  obtain ⟨r2, m2, x2, l2, t2, rfl⟩ := inv_f h3
  obtain ⟨r3, m3, x3, l3, t3, rfl⟩ := inv_f h4
  refine st_cons (call_f rfl rfl rfl rfl rfl rfl (hs.get _) r0 (load_at l0 (by omega)) (rot r0 t0)) ?_
  refine st_cons (call_f rfl rfl rfl rfl rfl rfl (hs.get _) r1 (load_at l1 (by omega)) (rot r1 t1)) ?_
  refine st_cons (call_f rfl rfl rfl rfl rfl rfl (hs.get _) r2 (load_at l2 (by omega)) (rot r2 t2)) ?_
  refine st_cons (call_f rfl rfl rfl rfl rfl rfl (hs.get _) r3 (load_at l3 (by omega)) (rot r3 t3)) ?_
  exact hE

theorem four_g {p o n blk r : Nat} {data m src : Bytes} {H : List (BitVec 32)} {v v' : Model.Md5.Vars} {s : Stmt} {rest : List Stmt} {E' : Env} (hs : Src data m p src)
    (h : Model.Locals.Md5.four Model.Locals.Md5.roundg (src.drop o) (blk * 16) v r = .ok v')
    (hE : exec N ext (block (s :: rest)) ⟨vs p o n blk [.u32 v'.1, .u32 v'.2.1, .u32 v'.2.2.1, .u32 v'.2.2.2], ar data m H⟩ = some E') :
    exec N ext (block (roundg 8 (.lit (.i32 r)) 4 5 6 7 (.var 2) ::
      roundg 8 (.lit (.i32 ((r + 1 : Nat) : Int))) 7 4 5 6 (.var 2) ::
      roundg 8 (.lit (.i32 ((r + 2 : Nat) : Int))) 6 7 4 5 (.var 2) ::
      roundg 8 (.lit (.i32 ((r + 3 : Nat) : Int))) 5 6 7 4 (.var 2) :: s :: rest))
      ⟨vs p o n blk [.u32 v.1, .u32 v.2.1, .u32 v.2.2.1, .u32 v.2.2.2], ar data m H⟩ = some E' := by
  obtain ⟨a, b, c, d⟩ := v
  obtain ⟨a1, h1, h⟩ := then_ok h
  obtain ⟨d1, h2, h⟩ := then_ok h
  obtain ⟨c1, h3, h⟩ := then_ok h
  obtain ⟨b1, h4, hv⟩ := then_ok h
  obtain rfl := Except.ok.inj hv
  obtain ⟨r0, m0, x0, l0, t0, rfl⟩ := inv_g h1
  obtain ⟨r1, m1, x1, l1, t1, rfl⟩ := inv_g h2
  obtain ⟨r2, m2, x2, l2, t2, rfl⟩ := inv_g h3
  obtain ⟨r3, m3, x3, l3, t3, rfl⟩ := inv_g h4
  refine st_cons (call_g rfl rfl rfl rfl rfl rfl (hs.get _) r0 (load_at l0 (by omega)) (rot r0 t0)) ?_
  refine st_cons (call_g rfl rfl rfl rfl rfl rfl (hs.get _) r1 (load_at l1 (by omega)) (rot r1 t1)) ?_
  refine st_cons (call_g rfl rfl rfl rfl rfl rfl (hs.get _) r2 (load_at l2 (by omega)) (rot r2 t2)) ?_
  refine st_cons (call_g rfl rfl rfl rfl rfl rfl (hs.get _) r3 (load_at l3 (by omega)) (rot r3 t3)) ?_
  exact hE

theorem four_h {p o n blk r : Nat} {data m src : Bytes} {H : List (BitVec 32)} {v v' : Model.Md5.Vars} {s : Stmt} {rest : List Stmt} {E' : Env} (hs : Src data m p src)
    (h : Model.Locals.Md5.four Model.Locals.Md5.roundh (src.drop o) (blk * 16) v r = .ok v')
    (hE : exec N ext (block (s :: rest)) ⟨vs p o n blk [.u32 v'.1, .u32 v'.2.1, .u32 v'.2.2.1, .u32 v'.2.2.2], ar data m H⟩ = some E') :
    exec N ext (block (roundh 8 (.lit (.i32 r)) 4 5 6 7 (.var 2) ::
      roundh 8 (.lit (.i32 ((r + 1 : Nat) : Int))) 7 4 5 6 (.var 2) ::
      roundh 8 (.lit (.i32 ((r + 2 : Nat) : Int))) 6 7 4 5 (.var 2) ::
      roundh 8 (.lit (.i32 ((r + 3 : Nat) : Int))) 5 6 7 4 (.var 2) :: s :: rest))
      ⟨vs p o n blk [.u32 v.1, .u32 v.2.1, .u32 v.2.2.1, .u32 v.2.2.2], ar data m H⟩ = some E' := by
  obtain ⟨a, b, c, d⟩ := v
  obtain ⟨a1, h1, h⟩ := then_ok h
  obtain ⟨d1, h2, h⟩ := then_ok h
  obtain ⟨c1, h3, h⟩ := then_ok h
  obtain ⟨b1, h4, hv⟩ := then_ok h
  obtain rfl := Except.ok.inj hv
  obtain ⟨r0, m0, x0, l0, t0, rfl⟩ := inv_h h1
  obtain ⟨r1, m1, x1, l1, t1, rfl⟩ := inv_h h2
  obtain ⟨r2, m2, x2, l2, t2, rfl⟩ := inv_h h3
  obtain ⟨r3, m3, x3, l3, t3, rfl⟩ := inv_h h4
  refine st_cons (call_h rfl rfl rfl rfl rfl rfl (hs.get _) r0 (load_at l0 (by omega)) (rot r0 t0)) ?_
  refine st_cons (call_h rfl rfl rfl rfl rfl rfl (hs.get _) r1 (load_at l1 (by omega)) (rot r1 t1)) ?_
  refine st_cons (call_h rfl rfl rfl rfl rfl rfl (hs.get _) r2 (load_at l2 (by omega)) (rot r2 t2)) ?_
  refine st_cons (call_h rfl rfl rfl rfl rfl rfl (hs.get _) r3 (load_at l3 (by omega)) (rot r3 t3)) ?_
  exact hE

theorem four_i {p o n blk r : Nat} {data m src : Bytes} {H : List (BitVec 32)} {v v' : Model.Md5.Vars} {s : Stmt} {rest : List Stmt} {E' : Env} (hs : Src data m p src)
    (h : Model.Locals.Md5.four Model.Locals.Md5.roundi (src.drop o) (blk * 16) v r = .ok v')
    (hE : exec N ext (block (s :: rest)) ⟨vs p o n blk [.u32 v'.1, .u32 v'.2.1, .u32 v'.2.2.1, .u32 v'.2.2.2], ar data m H⟩ = some E') :
    exec N ext (block (roundi 8 (.lit (.i32 r)) 4 5 6 7 (.var 2) ::
      roundi 8 (.lit (.i32 ((r + 1 : Nat) : Int))) 7 4 5 6 (.var 2) ::
      roundi 8 (.lit (.i32 ((r + 2 : Nat) : Int))) 6 7 4 5 (.var 2) ::
      roundi 8 (.lit (.i32 ((r + 3 : Nat) : Int))) 5 6 7 4 (.var 2) :: s :: rest))
      ⟨vs p o n blk [.u32 v.1, .u32 v.2.1, .u32 v.2.2.1, .u32 v.2.2.2], ar data m H⟩ = some E' := by
  obtain ⟨a, b, c, d⟩ := v
  obtain ⟨a1, h1, h⟩ := then_ok h
  obtain ⟨d1, h2, h⟩ := then_ok h
  obtain ⟨c1, h3, h⟩ := then_ok h
  obtain ⟨b1, h4, hv⟩ := then_ok h
  obtain rfl := Except.ok.inj hv
  obtain ⟨r0, m0, x0, l0, t0, rfl⟩ := inv_i h1
  obtain ⟨r1, m1, x1, l1, t1, rfl⟩ := inv_i h2
  obtain ⟨r2, m2, x2, l2, t2, rfl⟩ := inv_i h3
  obtain ⟨r3, m3, x3, l3, t3, rfl⟩ := inv_i h4
  refine st_cons (call_i rfl rfl rfl rfl rfl rfl (hs.get _) r0 (load_at l0 (by omega)) (rot r0 t0)) ?_
  refine st_cons (call_i rfl rfl rfl rfl rfl rfl (hs.get _) r1 (load_at l1 (by omega)) (rot r1 t1)) ?_
  refine st_cons (call_i rfl rfl rfl rfl rfl rfl (hs.get _) r2 (load_at l2 (by omega)) (rot r2 t2)) ?_
  refine st_cons (call_i rfl rfl rfl rfl rfl rfl (hs.get _) r3 (load_at l3 (by omega)) (rot r3 t3)) ?_
  exact hE

theorem foldlM4 {σ : Type} {f : σ → Nat → M σ} {a b c d : Nat} {v v' : σ} (h : [a, b, c, d].foldlM f v = .ok v') :
    ∃ v1 v2 v3, f v a = .ok v1 ∧ f v1 b = .ok v2 ∧ f v2 c = .ok v3 ∧ f v3 d = .ok v' := by
  obtain ⟨v1, e1, h⟩ := then_ok h
  obtain ⟨v2, e2, h⟩ := then_ok h
  obtain ⟨v3, e3, h⟩ := then_ok h
  obtain ⟨v4, e4, h5⟩ := then_ok h
  obtain rfl := Except.ok.inj h5
  exact ⟨v1, v2, v3, e1, e2, e3, e4⟩

theorem transform_run {p o n : Nat} {data m src : Bytes} {H H' : List (BitVec 32)} (hH : H.length = 4) (hn : n < N) (hd : n * 16 < 2 ^ 64) (hs : Src data m p src)
    (hl : loop 0 n (fun blk H => Model.Locals.Md5.block (src.drop o) blk H) H = .ok H') :
    ∃ e, exec N ext transform ⟨[.ptr p o 1, .u64 (BitVec.ofNat 64 n)], ar data m H⟩ = some e ∧
      ∃ more, H'.length = 4 ∧ e = ⟨.ptr p o 1 :: .u64 (BitVec.ofNat 64 n) :: more, ar data m H'⟩ := by
  apply ex_cons (E1 := ⟨[.ptr p o 1, .u64 (BitVec.ofNat 64 n), .ptr p o 4], ar data m H⟩)
  · run
  apply ex_one
  apply for_rel (fun blk (H : List (BitVec 32)) e => H.length = 4 ∧ e = ⟨vs p o n blk [], ar data m H⟩) hl
    (E0 := ⟨vs p o n 0 [], ar data m H⟩)
  · run
  · exact ⟨hH, rfl⟩
  · rintro t h e _ ht ⟨hH, rfl⟩
    exact test_nat (by ev) rfl (decide_eq_decide.2 (by simp only [BitVec.toNat_ofNat]; omega))
  · rintro blk H e H1 _ ht ⟨hH, rfl⟩ he
    obtain ⟨a, ha, he⟩ := then_ok he
    obtain ⟨b, hb, he⟩ := then_ok he
    obtain ⟨c, hc, he⟩ := then_ok he
    obtain ⟨d, hd, he⟩ := then_ok he
    obtain ⟨v1, e1, he⟩ := then_ok he
    obtain ⟨v2, e2, he⟩ := then_ok he
    obtain ⟨v3, e3, he⟩ := then_ok he
    obtain ⟨v4, e4, he⟩ := then_ok he
    match H, hH with
    | [a0, a1, a2, a3], _ =>
    obtain rfl := Except.ok.inj he
    obtain rfl := Except.ok.inj ha
    obtain rfl := Except.ok.inj hb
    obtain rfl := Except.ok.inj hc
    obtain rfl := Except.ok.inj hd
    obtain ⟨f1, f2, f3, p1, p2, p3, p4⟩ := foldlM4 e1
    obtain ⟨g1, g2, g3, q1, q2, q3, q4⟩ := foldlM4 e2
    obtain ⟨h1, h2, h3, r1, r2, r3, r4⟩ := foldlM4 e3
    obtain ⟨i1, i2, i3, s1, s2, s3, s4⟩ := foldlM4 e4
    clear hl he ha hb hc hd e1 e2 e3 e4
    refine ⟨⟨vs p o n (blk + 1) [], ar data m _⟩, ?_, rfl, rfl⟩
    rw [vs_succ]
    apply st_seq
    · apply st_scope
      · apply st_cons
        · run
        apply st_cons
        · run
        apply st_cons
        · run
        apply st_cons
        · run
        apply four_f hs p1
        apply four_f hs p2
        apply four_f hs p3
        apply four_f hs p4
        apply four_g hs q1
        apply four_g hs q2
        apply four_g hs q3
        apply four_g hs q4
        apply four_h hs r1
        apply four_h hs r2
        apply four_h hs r3
        apply four_h hs r4
        apply four_i hs s1
        apply four_i hs s2
        apply four_i hs s3
        apply four_i hs s4
        run
      · rfl
    · run
  · omega
  · omega
  · rintro e ⟨hH, rfl⟩
    exact ⟨[.ptr p (o + 64 * n) 4], hH, rfl⟩

end Digestpp.Cpp.Md5
