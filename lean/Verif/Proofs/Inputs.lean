import Verif.Spec.Inputs
import Verif.Proofs.Injective
import Verif.Proofs.Blake2p
import Verif.Proofs.Sha2
import Verif.Proofs.Ascon
import Verif.Proofs.Numeral
import Verif.Proofs.LeWords

/-! C40: the specifications as iterations, and what can be recovered from the inputs. -/

namespace Digestpp.Proofs.Inputs
open Model Spec Spec.Inputs

theorem foldBlocks_chunks {σ : Type} (n : Nat) (g : σ → Bytes → σ) (M : Bytes) (v : σ) :
    foldBlocks n (fun _ b h => g h b) M (M.length / n) v = (chunks n M).foldl g v := by
  unfold foldBlocks chunks
  rw [List.foldl_map]

theorem foldBlocks_numbered {σ β : Type} (n : Nat) (c : Nat → β) (g : σ → β × Bytes → σ) (M : Bytes) (v : σ) :
    foldBlocks n (fun i b h => g h (c i, b)) M (M.length / n) v = (numbered n c M).foldl g v := by
  unfold foldBlocks numbered
  rw [List.foldl_map]

theorem numbered_snd {α β : Type} (n : Nat) (c : Nat → β) (l : List α) : (numbered n c l).map Prod.snd = chunks n l := by
  unfold numbered chunks
  rw [List.map_map]
  rfl

/-! ## Iterations -/

theorem md5_eq : Spec.Md5.md5 = plainFn 16 (Inputs.md5.result ()) := rfl
theorem sha1_eq : Spec.Sha1.sha1 = plainFn 20 (Inputs.sha1.result ()) := rfl
theorem sm3_eq : Spec.Sm3.sm3 = plainFn 32 (Inputs.sm3.result ()) := rfl

theorem sha256_core (iv : Spec.Sha2.H8 32) (msg : Bytes) : Spec.Sha2.core Spec.Sha2.v256 iv msg
    = (Inputs.sha2 Spec.Sha2.v256 iv 0).chain () msg := by
  unfold Spec.Sha2.core Iter.chain Inputs.sha2
  dsimp only
  rw [show 32 / 4 = 8 from rfl, Sha2.beBytes8_bits64]

theorem sha224_eq : Spec.Sha2.sha224 = plainFn 28 ((Inputs.sha2 Spec.Sha2.v256 Spec.Sha2.iv224 28).result ()) := by
  refine congrArg (plainFn 28) (funext fun msg => ?_)
  rw [sha256_core]
  rfl

theorem length_bytes (h : Spec.Sha2.H8 32) : h.bytes.length = 32 := by
  simp only [Spec.Sha2.H8.bytes, ofBeWords, List.flatMap_cons, List.flatMap_nil, List.length_append, length_beBytes, List.length_nil]

theorem sha256_eq : Spec.Sha2.sha256 = plainFn 32 ((Inputs.sha2 Spec.Sha2.v256 Spec.Sha2.iv256 32).result ()) := by
  refine congrArg (plainFn 32) (funext fun msg => ?_)
  rw [sha256_core]
  exact (List.take_of_length_le (by rw [length_bytes]; decide)).symm

theorem whirlpool_eq : Spec.Whirlpool.whirlpoolWrap = plainFn 64 (Inputs.whirlpool.result ()) := by
  refine congrArg (plainFn 64) (funext fun msg => ?_)
  unfold Spec.Whirlpool.hashWith
  dsimp only
  rw [foldBlocks_chunks 64 (fun h b => Spec.Whirlpool.compress h (Spec.Whirlpool.mu b))]
  rfl

theorem kupyna_eq (n : Nat) : Spec.Kupyna.kupynaWrap n = plainFn n ((Inputs.kupyna (if n ≤ 32 then 8 else 16) n).result ()) := by
  refine congrArg (plainFn n) (funext fun msg => ?_)
  generalize (if n ≤ 32 then 8 else 16) = c
  unfold Spec.Kupyna.hashWith
  dsimp only
  rw [foldBlocks_chunks (8 * c) (fun h b => Spec.Kupyna.f c h (matOf b))]
  rfl

theorem groestl_eq (n : Nat) : Spec.Groestl.groestlWrap n = plainFn n ((Inputs.groestl (if n ≤ 32 then 8 else 16) n).result ()) := by
  refine congrArg (plainFn n) (funext fun msg => ?_)
  generalize (if n ≤ 32 then 8 else 16) = c
  unfold Spec.Groestl.hashWith
  dsimp only
  rw [foldBlocks_chunks (8 * c) (fun h b => Spec.Groestl.f c h (matOf b))]
  rfl

theorem jh_eq (n : Nat) : Spec.Jh.jhWrap n = plainFn n ((Inputs.jh n).result ()) := by
  refine congrArg (plainFn n) (funext fun msg => ?_)
  unfold Spec.Jh.hashWith
  dsimp only
  rw [foldBlocks_chunks 64 (fun H b => Spec.Jh.F8 H (Spec.Jh.bitsOf b))]
  rfl

theorem echo_eq (n : Nat) :
    Spec.Echo.echoWith wrap64 n = { Spec.Echo.echoWith wrap64 n with digest := (Inputs.echo (if n ≤ 32 then 4 else 8) n).result } := by
  refine congrArg (HashFn.mk _ _ _) (funext fun salt => funext fun msg => ?_)
  generalize (if n ≤ 32 then 4 else 8) = cw
  unfold Spec.Echo.hashWith
  dsimp only
  rw [foldBlocks_numbered (16 * (16 - cw)) (fun i => (salt, Spec.Echo.counter (16 * (16 - cw)) msg.length i))
    (fun V (x : (Bytes × Nat) × Bytes) => Spec.Echo.compress wrap64 cw (Spec.Echo.state x.1.1) x.1.2 x.2 V)]
  rfl

theorem streebog_eq (n : Nat) : plainFn n (Spec.Streebog.hashGen wrap64 Spec.Streebog.addNoRipple n)
    = plainFn n ((Inputs.streebog n).result ()) := by
  refine congrArg (plainFn n) (funext fun msg => ?_)
  unfold Spec.Streebog.hashGen Spec.Streebog.chain Iter.result Iter.chain Inputs.streebog
  dsimp only
  rw [foldBlocks_numbered 64 (fun k => wrap64 (512 * k)) (fun h (x : Nat × Bytes) => Spec.Streebog.g x.1 h (matOf x.2)), List.foldl_append]
  rfl

theorem lsh_eq {w : Nat} (F : Spec.Lsh.Family w) (n : Nat) : Spec.Lsh.lsh F n = plainFn n ((Inputs.lsh F n).result ()) := rfl

theorem blake_eq {w : Nat} (v : Spec.Blake.Variant w) (iv : Spec.Sha2.H8 w) (one : Bool) (n : Nat) :
    Spec.Blake.fnWith wrap64 v iv one n = { Spec.Blake.fnWith wrap64 v iv one n with digest := (Inputs.blake v iv one n).result } := by
  refine congrArg (HashFn.mk _ _ _) (funext fun salt => funext fun msg => ?_)
  unfold Spec.Blake.coreWith
  dsimp only
  rw [foldBlocks_numbered (2 * w) (fun i => (salt, wrap64 (Spec.Blake.counter (2 * w) msg.length i)))
    (fun h (x : (Bytes × Nat) × Bytes) => Spec.Blake.compress v (fun i => (beWords w x.1.1).getD i 0) x.1.2 x.2 h)]
  rfl

theorem blake2_core {w : Nat} (v : Spec.Blake2.Variant w) (p : Spec.Blake2.Params) (l : Bool) (data : Bytes) :
    Spec.Blake2.core v p l data = ofLeWords ((List.range 8).map ((blake2Items v p l data).foldl (blake2Step v) v.IV)) := by
  unfold Spec.Blake2.core blake2Items foldBlocks
  dsimp only
  rw [List.foldl_cons, List.foldl_map]
  rfl

theorem blake2_eq {w : Nat} (v : Spec.Blake2.Variant w) (keep : Bool) (n : Nat) :
    Spec.Blake2.fn v keep n = { Spec.Blake2.fn v keep n with digest := (Inputs.blake2 v n).result } := by
  refine congrArg (HashFn.mk _ _ _) (funext fun θ => funext fun msg => ?_)
  rw [blake2_core]
  rfl

theorem blake2x_eq {w : Nat} (v : Spec.Blake2.Variant w) (keep : Bool) (n : Nat) :
    Spec.Blake2.xfn v keep n = { Spec.Blake2.xfn v keep n with digest := (Inputs.blake2x v n).result } := by
  refine congrArg (HashFn.mk _ _ _) (funext fun θ => funext fun msg => ?_)
  unfold Spec.Blake2.root
  rw [blake2_core]
  rfl

theorem blake2xof_eq {w : Nat} (v : Spec.Blake2.Variant w) (keep : Bool) :
    Spec.Blake2.xof v keep = { Spec.Blake2.xof v keep with stream := (Inputs.blake2xof v).result } := by
  refine congrArg (XofFn.mk _ _) (funext fun θ => funext fun msg => funext fun j => ?_)
  unfold Spec.Blake2.root
  dsimp only
  rw [blake2_core]
  rfl

theorem blake2p_fold {w : Nat} (v : Spec.Blake2.Variant w) (i : Nat) (l : List Blake2Item) : ∀ V : Nat → Nat → BitVec w,
    (l.map (i, ·)).foldl (fun V x j => if j = x.1 then blake2Step v (V j) x.2 else V j) V
      = fun j => if j = i then l.foldl (blake2Step v) (V i) else V j := by
  induction l with
  | nil => intro V; funext j; by_cases h : j = i <;> simp [h]
  | cons a l ih =>
    intro V
    rw [List.map_cons, List.foldl_cons, ih]
    funext j
    by_cases h : j = i
    · subst h; simp
    · simp [h]

theorem blake2p_folds {w : Nat} (v : Spec.Blake2.Variant w) (L : Nat → List Blake2Item) (V : Nat → Nat → BitVec w) (P : Nat) :
    ((List.range P).flatMap fun i => (L i).map (i, ·)).foldl (fun V x j => if j = x.1 then blake2Step v (V j) x.2 else V j) V
      = fun j => if j < P then (L j).foldl (blake2Step v) (V j) else V j := by
  induction P with
  | zero => funext j; simp
  | succ P ih =>
    rw [List.range_succ, List.flatMap_append, List.foldl_append, ih, List.flatMap_cons, List.flatMap_nil, List.append_nil, blake2p_fold]
    funext j
    by_cases h : j = P
    · subst h; simp
    · by_cases h2 : j < P
      · rw [if_neg h, if_pos h2, if_pos (by omega)]
      · rw [if_neg h, if_neg h2, if_neg (by omega)]

theorem blake2p_eq {w : Nat} (v : Spec.Blake2.Variant w) (P : Nat) (keep : Bool) (n : Nat) :
    Spec.Blake2.pfn v P keep n = { Spec.Blake2.pfn v P keep n with digest := (Inputs.blake2p v P n).result } := by
  refine congrArg (HashFn.mk _ _ _) (funext fun θ => funext fun msg => ?_)
  unfold Iter.result Iter.chain Inputs.blake2p
  dsimp only
  rw [blake2p_folds]
  refine congrArg (List.take n) ?_
  refine congrArg (Spec.Blake2.core v _ true) ?_
  have e : ∀ i ∈ List.range P, Spec.Blake2.core v (blake2pNode w P n θ 0 i) (i + 1 = P)
        (Spec.Blake2.keyed (2 * w) θ.key (Spec.Blake2.stripe (2 * w) P i msg))
      = ofLeWords ((List.range 8).map ((fun j => if j < P then (blake2Items v (blake2pNode w P n θ 0 j) (decide (j + 1 = P))
          (Spec.Blake2.keyed (2 * w) θ.key (Spec.Blake2.stripe (2 * w) P j msg))).foldl (blake2Step v) v.IV else v.IV) i)) := by
    intro i hi
    dsimp only
    rw [if_pos (List.mem_range.1 hi), blake2_core]
  rw [List.flatMap_def, List.flatMap_def]
  exact congrArg List.flatten (List.map_congr_left e)

theorem ubi_eq (T : Spec.Skein.Threefish) (g : Nat → BitVec 64) (data : Bytes) (type : Nat) :
    Spec.Skein.ubi T g data type = (Inputs.ubi T.nw data type).foldl (skeinStep T) g := by
  unfold Spec.Skein.ubi Inputs.ubi foldBlocks
  dsimp only
  rw [List.foldl_map]
  rfl

theorem opt_eq (T : Spec.Skein.Threefish) (g : Nat → BitVec 64) (data : Bytes) (type : Nat) :
    Spec.Skein.opt T g data type = (Inputs.ubiOpt T.nw data type).foldl (skeinStep T) g := by
  unfold Spec.Skein.opt Inputs.ubiOpt
  split
  · rfl
  · exact ubi_eq T g data type

theorem skein_chain (T : Spec.Skein.Threefish) (bits : Nat) (θ : Spec.Skein.Theta) (msg : Bytes) :
    Spec.Skein.chain T bits θ msg = (Inputs.skeinInputs T.nw bits θ msg).foldl (skeinStep T) (fun _ => 0) := by
  unfold Spec.Skein.chain Inputs.skeinInputs
  dsimp only
  simp only [List.foldl_append, ubi_eq, opt_eq]

theorem skein_eq (T : Spec.Skein.Threefish) (n : Nat) :
    Spec.Skein.fn T n = { Spec.Skein.fn T n with digest := (Inputs.skein T n).result } := by
  refine congrArg (HashFn.mk _ _ _) (funext fun θ => funext fun msg => ?_)
  rw [skein_chain]
  rfl

theorem skeinXof_eq (T : Spec.Skein.Threefish) :
    Spec.Skein.xof T = { Spec.Skein.xof T with stream := (Inputs.skeinXof T).result } := by
  refine congrArg (XofFn.mk _ _) (funext fun θ => funext fun msg => funext fun j => ?_)
  rw [skein_chain]
  rfl

theorem sha3_eq (d : Nat) : Spec.sha3 d = plainFn (d / 8) ((Inputs.sha3 d).result ()) := rfl

theorem shake_eq (b : Nat) : Spec.shake b = { Spec.shake b with stream := (Inputs.shake b).result } := rfl

theorem esch_absorb (F : Spec.Esch.Family) (dom : BitVec 32) (msg : Bytes) :
    Spec.Esch.absorb F dom msg = (eschInputs dom msg).foldl (eschStep F) (fun _ => (0, 0)) := by
  unfold Spec.Esch.absorb eschInputs foldBlocks
  dsimp only
  rw [List.foldl_append, List.foldl_map]
  split <;> rfl

theorem esch_eq (F : Spec.Esch.Family) (n : Nat) : Spec.Esch.esch F n = plainFn n ((Inputs.esch F n).result ()) := by
  refine congrArg (plainFn n) (funext fun msg => ?_)
  unfold Spec.Esch.hash
  rw [esch_absorb]
  rfl

theorem eschXof_eq (F : Spec.Esch.Family) : Spec.Esch.eschXof F = { Spec.Esch.eschXof F with stream := (Inputs.eschXof F).result } := by
  refine congrArg (XofFn.mk _ _) (funext fun θ => funext fun msg => ?_)
  rw [esch_absorb]
  rfl

theorem ascon_absorb (s : Spec.Ascon.State) (x : Bytes) :
    Spec.Ascon.absorb s x = (chunks 8 x).foldl (fun s b => Spec.Ascon.absorbBlock b s) s :=
  foldBlocks_chunks 8 (fun s b => Spec.Ascon.absorbBlock b s) x s

theorem asconHash_eq : Spec.Ascon.hash256 = plainFn 32 (Inputs.asconHash.result ()) := by
  refine congrArg (plainFn 32) (funext fun msg => ?_)
  rw [ascon_absorb]
  rfl

theorem asconXof_eq : Spec.Ascon.xof128 = { Spec.Ascon.xof128 with stream := Inputs.asconXof.result } := by
  refine congrArg (XofFn.mk _ _) (funext fun θ => funext fun msg => ?_)
  rw [ascon_absorb]
  rfl

theorem asconCxof_eq : Spec.Ascon.cxof128 = { Spec.Ascon.cxof128 with stream := Inputs.asconCxof.result } := by
  refine congrArg (XofFn.mk _ _) (funext fun θ => funext fun msg => ?_)
  rw [ascon_absorb]
  rfl

theorem k12_eq (b R : Nat) : Spec.k12 b R = { Spec.k12 b R with stream := Inputs.k12Stream R (200 - 2 * b / 8) (b / 4) } := by
  refine congrArg (XofFn.mk _ _) (funext fun C => funext fun msg => ?_)
  unfold Spec.K12.stream Spec.K12.tree Inputs.k12Stream Inputs.k12
  dsimp only
  split
  · rfl
  · dsimp only [List.headD_cons]
    rw [List.map_map]
    rfl

/-! ## Injectivity -/

theorem length_toMultiple (bs n : Nat) (h : 0 < bs) : (n + toMultiple bs n) % bs = 0 := by
  unfold toMultiple
  have h1 := Nat.mod_lt n h
  rcases Nat.eq_zero_or_pos (n % bs) with h0 | h0
  · rw [h0, Nat.sub_zero, Nat.mod_self, Nat.add_zero, h0]
  · rw [Nat.mod_eq_of_lt (show bs - n % bs < bs by omega)]
    have h2 := Nat.div_add_mod n bs
    have h3 : n + (bs - n % bs) = bs * (n / bs) + bs := by omega
    rw [h3, Nat.add_mod_right, Nat.mul_mod_right]

theorem length_mdPad (bs : Nat) (h : 0 < bs) (f msg : Bytes) : (mdPad bs f msg).length % bs = 0 := by
  unfold mdPad
  simp only [List.length_append, List.length_singleton, List.length_replicate]
  have := length_toMultiple bs (msg.length + 1 + f.length) h
  rwa [show msg.length + 1 + toMultiple bs (msg.length + 1 + f.length) + f.length
    = msg.length + 1 + f.length + toMultiple bs (msg.length + 1 + f.length) by omega]

/-- Padding with a length field. -/
theorem md_chunks {bs : Nat} (h0 : 0 < bs) {f f' msg msg' : Bytes} (hf : f.length = f'.length)
    (h : chunks bs (mdPad bs f msg) = chunks bs (mdPad bs f' msg')) : msg = msg' :=
  mdPad_inj hf (chunks_inj (length_mdPad bs h0 _ _) (length_mdPad bs h0 _ _) h)

/-- Padding with a bit and zeros. -/
theorem one_chunks {bs : Nat} (h0 : 0 < bs) {d : Byte} (hd : d ≠ 0) {msg msg' : Bytes}
    (h : chunks bs (msg ++ [d] ++ List.replicate (toMultiple bs (msg.length + 1)) 0)
      = chunks bs (msg' ++ [d] ++ List.replicate (toMultiple bs (msg'.length + 1)) 0)) : msg = msg' := by
  have hl : ∀ m : Bytes, (m ++ [d] ++ List.replicate (toMultiple bs (m.length + 1)) 0).length % bs = 0 := by
    intro m
    simp only [List.length_append, List.length_singleton, List.length_replicate]
    exact length_toMultiple bs _ h0
  exact (zeros_inj hd hd (chunks_inj (hl _) (hl _) h)).1

theorem unit_det {V I O : Type} {it : Iter Unit V I O} (h : ∀ msg msg', it.inputs () msg = it.inputs () msg' → msg = msg') :
    it.Determines fun _ _ => True := fun _ _ _ _ _ _ e => ⟨rfl, h _ _ e⟩

theorem md5_det : Inputs.md5.Determines fun _ _ => True :=
  unit_det fun _ _ h => md_chunks (by decide) (by rw [length_leBytes, length_leBytes]) h

theorem sha1_det : Inputs.sha1.Determines fun _ _ => True :=
  unit_det fun _ _ h => md_chunks (by decide) (by rw [length_beBytes, length_beBytes]) h

theorem sm3_det : Inputs.sm3.Determines fun _ _ => True :=
  unit_det fun _ _ h => md_chunks (by decide) (by rw [length_beBytes, length_beBytes]) h

theorem sha2_det {w : Nat} (hw : 0 < w) (v : Spec.Sha2.Variant w) (iv : Spec.Sha2.H8 w) (n : Nat) :
    (Inputs.sha2 v iv n).Determines fun _ _ => True :=
  unit_det fun _ _ h => md_chunks (by omega) (by rw [length_beBytes, length_beBytes]) h

theorem whirlpool_det : Inputs.whirlpool.Determines fun _ _ => True :=
  unit_det fun _ _ h => md_chunks (by decide) (by rw [length_beBytes, length_beBytes]) h

theorem kupyna_det (c n : Nat) (hc : 0 < c) : (Inputs.kupyna c n).Determines fun _ _ => True :=
  unit_det fun _ _ h => md_chunks (by omega) (by rw [length_leBytes, length_leBytes]) h

theorem groestl_det (c n : Nat) (hc : 0 < c) : (Inputs.groestl c n).Determines fun _ _ => True :=
  unit_det fun _ _ h => md_chunks (by omega) (by rw [length_beBytes, length_beBytes]) h

theorem length_jhPad (wrap : Nat → Nat) (msg : Bytes) : (Spec.Jh.pad wrap msg).length % 64 = 0 := by
  unfold Spec.Jh.pad
  simp only [List.length_append, List.length_singleton, List.length_replicate, length_beBytes]
  have := length_toMultiple 64 msg.length (by decide)
  omega

theorem jh_det (n : Nat) : (Inputs.jh n).Determines fun _ _ => True :=
  unit_det fun _ _ h => by
    have h := chunks_inj (length_jhPad _ _) (length_jhPad _ _) h
    unfold Spec.Jh.pad at h
    exact (zeros_inj (by decide) (by decide) (List.append_inj' h (by rw [length_beBytes, length_beBytes])).1).1

theorem numbered_chunks {α β : Type} {n : Nat} {c c' : Nat → β} {l l' : List α} (h : numbered n c l = numbered n c' l') :
    chunks n l = chunks n l' := by
  rw [← numbered_snd n c, ← numbered_snd n c', h]

/-- What all calls get. -/
theorem numbered_same {α β γ : Type} {n : Nat} {s s' : γ} {c c' : Nat → β} {l l' : List α} (hl : 0 < l.length / n)
    (h : numbered n (fun i => (s, c i)) l = numbered n (fun i => (s', c' i)) l') : s = s' := by
  have h := congrArg List.head? h
  unfold numbered at h
  obtain ⟨k, hk⟩ : ∃ k, l.length / n = k + 1 := ⟨l.length / n - 1, by omega⟩
  rw [hk, List.range_succ_eq_map, List.map_cons, List.head?_cons] at h
  cases hk' : l'.length / n with
  | zero => rw [hk'] at h; exact nomatch h
  | succ k' =>
    rw [hk', List.range_succ_eq_map, List.map_cons, List.head?_cons] at h
    injection h with h
    injection h with h _
    injection h

theorem div_pos_of_mod {a n : Nat} (hn : 0 < n) (ha : 0 < a) (h : a % n = 0) : 0 < a / n :=
  Nat.div_pos (Nat.le_of_dvd ha (Nat.dvd_of_mod_eq_zero h)) hn

theorem echo_det (cw n : Nat) (hc : cw < 16) : (Inputs.echo cw n).Determines fun _ _ => True := by
  intro θ θ' msg msg' _ _ h
  have h0 : 0 < 16 * (16 - cw) := by omega
  refine ⟨numbered_same (div_pos_of_mod h0 ?_ (length_mdPad _ h0 _ _)) h, md_chunks h0 ?_ (numbered_chunks h)⟩
  · unfold mdPad; simp only [List.length_append, List.length_singleton]; omega
  · simp only [List.length_append, length_leBytes]

theorem streebog_det (n : Nat) : (Inputs.streebog n).Determines fun _ _ => True :=
  unit_det fun msg msg' h => by
    unfold Inputs.streebog at h
    dsimp only at h
    have h1 := (List.append_inj' h (by simp only [List.length_cons, List.length_nil])).1
    exact one_chunks (by decide) (by decide) (numbered_chunks h1)

theorem lsh_det {w : Nat} (hw : 0 < w) (F : Spec.Lsh.Family w) (n : Nat) : (Inputs.lsh F n).Determines fun _ _ => True :=
  unit_det fun _ _ h => one_chunks (by omega) (by decide) h

theorem blakePad_body (z : Nat) : (0x80 :: List.replicate z (0 : Byte)).dropLast ++ [(0x80 :: List.replicate z (0 : Byte)).getLastD 0]
    = 0x80 :: List.replicate z 0 := by
  rw [List.getLastD_eq_getLast?, List.getLast?_eq_some_getLast (by simp), Option.getD_some, List.dropLast_concat_getLast]

theorem blakePad_last (z : Nat) : (0x80 :: List.replicate z (0 : Byte)).getLastD 0 = if z = 0 then 0x80 else 0 := by
  cases z with
  | zero => rfl
  | succ z => rw [List.replicate_succ', List.getLastD_cons]; simp

theorem length_blakePad (bs lf : Nat) (one : Bool) (bits : Nat) (msg : Bytes) (h : 0 < bs) :
    (Spec.Blake.pad bs lf one bits msg).length % bs = 0 := by
  unfold Spec.Blake.pad
  simp only [List.length_append, List.length_dropLast, List.length_cons, List.length_replicate, length_beBytes, List.length_nil]
  have := length_toMultiple bs (msg.length + 1 + lf) h
  rwa [show msg.length + (toMultiple bs (msg.length + 1 + lf) + 1 - 1) + (0 + 1) + lf
    = msg.length + 1 + lf + toMultiple bs (msg.length + 1 + lf) by omega]

theorem blakePad_inj {bs lf : Nat} {one : Bool} {b b' : Nat} {msg msg' : Bytes}
    (h : Spec.Blake.pad bs lf one b msg = Spec.Blake.pad bs lf one b' msg') : msg = msg' := by
  unfold Spec.Blake.pad at h
  dsimp only at h
  obtain ⟨h, _⟩ := List.append_inj' h (by rw [length_beBytes, length_beBytes])
  obtain ⟨h, h1⟩ := List.append_inj' h rfl
  generalize toMultiple bs (msg.length + 1 + lf) = z at h h1
  generalize toMultiple bs (msg'.length + 1 + lf) = z' at h h1
  have e : (0x80 :: List.replicate z (0 : Byte)).getLastD 0 = (0x80 :: List.replicate z' (0 : Byte)).getLastD 0 := by
    injection h1 with h1
    rw [blakePad_last, blakePad_last] at *
    revert h1
    cases one <;> by_cases hz : z = 0 <;> by_cases hz' : z' = 0 <;> simp [hz, hz']
  have h2 : msg ++ (0x80 :: List.replicate z 0) = msg' ++ (0x80 :: List.replicate z' 0) := by
    rw [← blakePad_body z, ← blakePad_body z', ← List.append_assoc, ← List.append_assoc, h, e]
  refine (zeros_inj (d := 0x80) (d' := 0x80) (z := z) (z' := z') (by decide) (by decide) ?_).1
  simpa using h2

theorem blake_det {w : Nat} (hw : 0 < w) (v : Spec.Blake.Variant w) (iv : Spec.Sha2.H8 w) (one : Bool) (n : Nat) :
    (Inputs.blake v iv one n).Determines fun _ _ => True := by
  intro θ θ' msg msg' _ _ h
  have h0 : 0 < 2 * w := by omega
  refine ⟨numbered_same (div_pos_of_mod h0 ?_ (length_blakePad _ _ _ _ _ h0)) h,
    blakePad_inj (chunks_inj (length_blakePad _ _ _ _ _ h0) (length_blakePad _ _ _ _ _ h0) (numbered_chunks h))⟩
  unfold Spec.Blake.pad; simp only [List.length_append, List.length_singleton]; omega

/-- Data cut into blocks, the last one filled up with zeros, with a count of the bytes. -/
theorem counted_inj {bs : Nat} (hbs : 0 < bs) {data data' : Bytes} {k k' : Nat} (hk : k = max 1 ((data.length + bs - 1) / bs))
    (hk' : k' = max 1 ((data'.length + bs - 1) / bs))
    (h : (List.range k).map (fun i => (min ((i + 1) * bs) data.length, blockAt bs i (data ++ List.replicate (k * bs - data.length) 0)))
      = (List.range k').map (fun i => (min ((i + 1) * bs) data'.length, blockAt bs i (data' ++ List.replicate (k' * bs - data'.length) 0)))) :
    data = data' := by
  have hle : ∀ {d : Bytes} {k : Nat}, k = max 1 ((d.length + bs - 1) / bs) → d.length ≤ k * bs := by
    intro d k hk
    have h1 : (d.length + bs - 1) / bs ≤ k := by omega
    have h2 := Nat.mul_le_mul_right bs h1
    have h3 := Nat.div_add_mod (d.length + bs - 1) bs
    have h4 := Nat.mod_lt (d.length + bs - 1) hbs
    rw [Nat.mul_comm] at h3
    omega
  have l := hle hk
  have l' := hle hk'
  have hkk : k = k' := by simpa using congrArg List.length h
  subst hkk
  have hp : (data ++ List.replicate (k * bs - data.length) 0).length = k * bs := by simp; omega
  have hp' : (data' ++ List.replicate (k * bs - data'.length) 0).length = k * bs := by simp; omega
  have e : data ++ List.replicate (k * bs - data.length) 0 = data' ++ List.replicate (k * bs - data'.length) 0 := by
    apply chunks_inj (n := bs) (by rw [hp, Nat.mul_mod_left]) (by rw [hp', Nat.mul_mod_left])
    unfold chunks
    rw [hp, hp', Nat.mul_div_cancel _ hbs]
    have := congrArg (List.map Prod.snd) h
    rwa [List.map_map, List.map_map] at this
  have hlen : data.length = data'.length := by
    have h1 : 1 ≤ k := by omega
    have := congrArg (fun l => l[k - 1]?) h
    simp only [List.getElem?_map, List.getElem?_range (show k - 1 < k by omega), Option.map_some, Option.some.injEq, Prod.mk.injEq] at this
    have := this.1
    rw [show k - 1 + 1 = k by omega] at this
    omega
  have := congrArg (List.take data.length) e
  rw [List.take_left, hlen, List.take_left] at this
  exact this

/-! ### BLAKE2 -/

/-- Counter and block of an item. -/
def itemBlock : Blake2Item → Nat × Bytes
  | .params _ => (0, [])
  | .block t _ _ b => (t, b)

theorem blake2Items_inj {w : Nat} (hw : 0 < w) {v : Spec.Blake2.Variant w} {p p' : Spec.Blake2.Params} {l l' : Bool} {data data' : Bytes}
    (h : blake2Items v p l data = blake2Items v p' l' data') : p.bytes v = p'.bytes v ∧ data = data' := by
  unfold blake2Items at h
  dsimp only at h
  injection h with h1 h2
  injection h1 with h1
  refine ⟨h1, counted_inj (bs := 2 * w) (by omega) rfl rfl ?_⟩
  have h2 := congrArg (List.map itemBlock) h2
  rwa [List.map_map, List.map_map] at h2

theorem params_inj {w : Nat} {v : Spec.Blake2.Variant w} {p p' : Spec.Blake2.Params} (hs : p.salt.length = p'.salt.length)
    (hp : p.personal.length = p'.personal.length) (hk : p.keyLen < 256) (hk' : p'.keyLen < 256) (h : p.bytes v = p'.bytes v) :
    p.keyLen = p'.keyLen ∧ p.salt = p'.salt ∧ p.personal = p'.personal := by
  unfold Spec.Blake2.Params.bytes at h
  dsimp only at h
  obtain ⟨h, h1⟩ := List.append_inj' h hp
  obtain ⟨h, h2⟩ := List.append_inj' h hs
  refine ⟨?_, h2, h1⟩
  have h := congrArg (fun l => leNat ((l.drop 1).take 1)) h
  have e : ∀ (a b c : Bytes), a.length = 1 → b.length = 1 → ((a ++ b ++ c).drop 1).take 1 = b := by
    intro a b c ha hb
    rw [List.append_assoc, List.drop_append_of_le_length (by omega), List.drop_of_length_le (by omega), List.nil_append,
      List.take_append_of_le_length (by omega), List.take_of_length_le (by omega)]
  simp only [List.append_assoc] at h
  rw [← List.append_assoc (leBytes 1 p.digestLen), ← List.append_assoc (leBytes 1 p'.digestLen), e _ _ _ (length_leBytes _ _) (length_leBytes _ _),
    e _ _ _ (length_leBytes _ _) (length_leBytes _ _), leNat_leBytes, leNat_leBytes, Nat.pow_one, Nat.mod_eq_of_lt hk,
    Nat.mod_eq_of_lt hk'] at h
  exact h

theorem keyed_inj {bs : Nat} {key key' msg msg' : Bytes} (hl : key.length = key'.length)
    (h : Spec.Blake2.keyed bs key msg = Spec.Blake2.keyed bs key' msg') : key = key' ∧ msg = msg' := by
  unfold Spec.Blake2.keyed at h
  by_cases h0 : key = []
  · subst h0
    have h1 : key' = [] := List.length_eq_zero_iff.1 hl.symm
    subst h1
    rw [if_pos rfl, if_pos rfl] at h
    exact ⟨rfl, h⟩
  · have h1 : key' ≠ [] := fun h1 => by subst h1; exact h0 (List.length_eq_zero_iff.1 hl)
    rw [if_neg h0, if_neg h1] at h
    obtain ⟨h2, h3⟩ := List.append_inj h (by simp only [List.length_append, List.length_replicate]; omega)
    exact ⟨(List.append_inj h2 hl).1, h3⟩

theorem theta_eq {w : Nat} {θ θ' : Spec.Blake2.Theta} (h1 : θ.key = θ'.key) (h2 : θ.salt = θ'.salt) (h3 : θ.personal = θ'.personal) : θ = θ' := by
  cases θ; cases θ'; cases h1; cases h2; cases h3; rfl

theorem blake2Node_inj {w : Nat} (hw : 0 < w) (hw' : w < 256) {v : Spec.Blake2.Variant w} (mk : Spec.Blake2.Theta → Spec.Blake2.Params)
    (hmk : ∀ θ, (mk θ).keyLen = θ.key.length ∧ (mk θ).salt = θ.salt ∧ (mk θ).personal = θ.personal) {l : Bool}
    {θ θ' : Spec.Blake2.Theta} {msg msg' : Bytes} (ok : BlakeOk w θ) (ok' : BlakeOk w θ')
    (h : blake2Items v (mk θ) l (Spec.Blake2.keyed (2 * w) θ.key msg) = blake2Items v (mk θ') l (Spec.Blake2.keyed (2 * w) θ'.key msg')) :
    θ = θ' ∧ msg = msg' := by
  obtain ⟨h1, h2⟩ := blake2Items_inj hw h
  obtain ⟨a, b, c⟩ := hmk θ
  obtain ⟨a', b', c'⟩ := hmk θ'
  obtain ⟨k, s, p⟩ := params_inj (by rw [b, b', ok.2.1, ok'.2.1]) (by rw [c, c', ok.2.2, ok'.2.2]) (by rw [a]; have := ok.1; omega)
    (by rw [a']; have := ok'.1; omega) h1
  rw [a, a'] at k
  obtain ⟨k, m⟩ := keyed_inj k h2
  exact ⟨theta_eq (w := w) k (by rw [← b, s, b']) (by rw [← c, p, c']), m⟩

theorem blake2_det {w : Nat} (hw : 0 < w) (hw' : w < 256) (v : Spec.Blake2.Variant w) (n : Nat) :
    (Inputs.blake2 v n).Determines fun θ _ => BlakeOk w θ :=
  fun _ _ _ _ ok ok' h => blake2Node_inj hw hw' (fun θ => Spec.Blake2.seqParams θ n 0) (fun _ => ⟨rfl, rfl, rfl⟩) ok ok' h

theorem blake2x_det {w : Nat} (hw : 0 < w) (hw' : w < 256) (v : Spec.Blake2.Variant w) (n : Nat) :
    (Inputs.blake2x v n).Determines fun θ _ => BlakeOk w θ :=
  fun _ _ _ _ ok ok' h => blake2Node_inj hw hw' (fun θ => Spec.Blake2.seqParams θ w n) (fun _ => ⟨rfl, rfl, rfl⟩) ok ok' h

theorem blake2xof_det {w : Nat} (hw : 0 < w) (hw' : w < 256) (v : Spec.Blake2.Variant w) :
    (Inputs.blake2xof v).Determines fun θ _ => BlakeOk w θ :=
  fun _ _ _ _ ok ok' h => blake2Node_inj hw hw' (fun θ => Spec.Blake2.seqParams θ w (256 ^ v.xlen - 1)) (fun _ => ⟨rfl, rfl, rfl⟩) ok ok' h

/-! ### BLAKE2bp, BLAKE2sp -/

theorem length_flatMap_const {B : Nat → Bytes} {bs : Nat} : ∀ k, (∀ b, b < k → (B b).length = bs) → ((List.range k).flatMap B).length = k * bs := by
  intro k
  induction k with
  | zero => intro _; simp
  | succ k ih =>
    intro h
    rw [List.range_succ, List.flatMap_append, List.length_append, ih (fun b hb => h b (by omega)), List.flatMap_cons, List.flatMap_nil,
      List.append_nil, h k (by omega), Nat.add_mul, Nat.one_mul]

theorem blockAt_flatMap {B : Nat → Bytes} {bs k : Nat} (h : ∀ b, b < k → (B b).length = bs) (hk : (B k).length ≤ bs) (j : Nat) (hj : j ≤ k) :
    blockAt bs j ((List.range (k + 1)).flatMap B) = B j := by
  unfold blockAt
  have e : List.range (k + 1) = List.range j ++ (j :: (List.range (k - j)).map (fun x => j + 1 + x)) := by
    rw [show k + 1 = j + (1 + (k - j)) by omega, List.range_add, List.range_add]
    simp [Nat.add_assoc]
  rw [e, List.flatMap_append, List.flatMap_cons]
  have hl := length_flatMap_const (B := B) (bs := bs) j (fun b hb => h b (by omega))
  rw [List.drop_append_of_le_length (by omega), List.drop_of_length_le (by omega), List.nil_append]
  by_cases hjk : j = k
  · subst hjk
    rw [Nat.sub_self]
    simp only [List.range_zero, List.map_nil, List.flatMap_nil, List.append_nil]
    exact List.take_of_length_le hk
  · have := h j (by omega)
    rw [List.take_append_of_le_length (by omega), List.take_of_length_le (by omega)]

theorem blockAt_stripe {bs P i : Nat} (hbs : 0 < bs) (hi : i < P) (msg : Bytes) (j : Nat) :
    blockAt bs j (Spec.Blake2.stripe bs P i msg) = blockAt bs (j * P + i) msg := by
  have hP : 0 < P := by omega
  have hB : 0 < P * bs := Nat.mul_pos hP hbs
  generalize hk : msg.length / (P * bs) = k
  have h1 := Nat.div_add_mod msg.length (P * bs)
  have h2 := Nat.mod_lt msg.length hB
  rw [hk] at h1
  rw [Blake2p.stripe_eq bs P i hbs hi msg k hk.symm]
  have e : Blake2p.groups bs P i k msg ++ (if i * bs < msg.length - k * (P * bs) then blockAt bs (k * P + i) msg else [])
      = (List.range (k + 1)).flatMap fun b => blockAt bs (b * P + i) msg := by
    rw [List.range_succ, List.flatMap_append, List.flatMap_cons, List.flatMap_nil, List.append_nil]
    refine congrArg (Blake2p.groups bs P i k msg ++ ·) ?_
    split
    · rfl
    · unfold blockAt
      rw [List.drop_of_length_le, List.take_nil]
      rw [Nat.add_mul, Nat.mul_assoc]
      rename_i h
      rw [Nat.mul_comm (P * bs) k] at h1
      omega
  rw [e]
  by_cases hj : j ≤ k
  · refine blockAt_flatMap ?_ ?_ j hj
    · intro b hb
      unfold blockAt
      rw [List.length_take, List.length_drop]
      have h3 : (b + 1) * (P * bs) ≤ k * (P * bs) := Nat.mul_le_mul_right _ hb
      have h4 : (i + 1) * bs ≤ P * bs := Nat.mul_le_mul_right _ hi
      have h5 : (b * P + i) * bs = b * (P * bs) + i * bs := by rw [Nat.add_mul, Nat.mul_assoc]
      have h6 : (b + 1) * (P * bs) = b * (P * bs) + P * bs := by rw [Nat.add_mul, Nat.one_mul]
      have h7 : (i + 1) * bs = i * bs + bs := by rw [Nat.add_mul, Nat.one_mul]
      rw [Nat.mul_comm (P * bs) k] at h1
      rw [h5]
      omega
    · unfold blockAt
      rw [List.length_take]
      omega
  · have hl : ((List.range (k + 1)).flatMap fun b => blockAt bs (b * P + i) msg).length ≤ (k + 1) * bs := by
      rw [List.length_flatMap]
      generalize k + 1 = n
      induction n with
      | zero => simp
      | succ n ih =>
        rw [List.range_succ, List.map_append, List.sum_append, Nat.add_mul]
        simp only [List.map_cons, List.map_nil, List.sum_cons, List.sum_nil]
        have : (blockAt bs (n * P + i) msg).length ≤ bs := by unfold blockAt; rw [List.length_take]; omega
        omega
    have h3 : (k + 1) * bs ≤ j * bs := Nat.mul_le_mul_right _ (by omega)
    have h4 : (k + 1) * (P * bs) ≤ j * (P * bs) := Nat.mul_le_mul_right _ (by omega)
    clear e
    generalize (List.range (k + 1)).flatMap (fun b => blockAt bs (b * P + i) msg) = L at hl ⊢
    unfold blockAt
    rw [List.drop_of_length_le (by omega), List.drop_of_length_le]
    rw [Nat.add_mul, Nat.mul_assoc]
    rw [Nat.add_mul, Nat.one_mul] at h4
    rw [Nat.mul_comm (P * bs) k] at h1
    omega

theorem ext_blocks {bs : Nat} (hbs : 0 < bs) {a b : Bytes} (h : ∀ j, blockAt bs j a = blockAt bs j b) : a = b := by
  apply List.ext_getElem?
  intro n
  have e : ∀ l : Bytes, l[n]? = (blockAt bs (n / bs) l)[n % bs]? := by
    intro l
    unfold blockAt
    rw [List.getElem?_take_of_lt (Nat.mod_lt _ hbs), List.getElem?_drop, Nat.div_add_mod']
  rw [e a, e b, h]

theorem stripes_inj {bs P : Nat} (hbs : 0 < bs) (hP : 0 < P) {msg msg' : Bytes}
    (h : ∀ i, i < P → Spec.Blake2.stripe bs P i msg = Spec.Blake2.stripe bs P i msg') : msg = msg' := by
  apply ext_blocks hbs
  intro j
  have hi := Nat.mod_lt j hP
  have := blockAt_stripe hbs hi msg (j / P)
  rw [h _ hi, blockAt_stripe hbs hi msg', Nat.div_add_mod'] at this
  exact this.symm

theorem filter_leaf {α : Type} (L : Nat → List α) (P i : Nat) (hi : i < P) :
    (((List.range P).flatMap fun j => (L j).map (j, ·)).filter (fun x => x.1 = i)).map Prod.snd = L i := by
  have e : ∀ j, ((L j).map (j, ·)).filter (fun x => decide (x.1 = i)) = if j = i then (L j).map (j, ·) else [] := by
    intro j
    split
    · subst_vars
      apply List.filter_eq_self.2
      intro a ha
      obtain ⟨_, _, rfl⟩ := List.mem_map.1 ha
      simp
    · rename_i h
      apply List.filter_eq_nil_iff.2
      intro a ha
      obtain ⟨_, _, rfl⟩ := List.mem_map.1 ha
      simpa using h
  have g : ∀ P, ((List.range P).flatMap fun j => (L j).map (j, ·)).filter (fun x => decide (x.1 = i)) = if i < P then (L i).map (i, ·) else [] := by
    intro P
    induction P with
    | zero => rfl
    | succ P ih =>
      rw [List.range_succ, List.flatMap_append, List.filter_append, ih, List.flatMap_cons, List.flatMap_nil, List.append_nil, e]
      by_cases h : P = i
      · subst h; simp
      · by_cases h2 : i < P
        · rw [if_pos h2, if_neg h, if_pos (by omega), List.append_nil]
        · rw [if_neg h2, if_neg h, if_neg (by omega), List.append_nil]
  rw [g, if_pos hi, List.map_map]
  exact List.map_id _

theorem blake2p_det {w : Nat} (hw : 0 < w) (hw' : w < 256) (v : Spec.Blake2.Variant w) (P n : Nat) (hP : 0 < P) :
    (Inputs.blake2p v P n).Determines fun θ _ => BlakeOk w θ := by
  intro θ θ' msg msg' ok ok' h
  have hi : ∀ i, i < P → θ = θ' ∧ Spec.Blake2.stripe (2 * w) P i msg = Spec.Blake2.stripe (2 * w) P i msg' := by
    intro i hi
    have h1 := congrArg (fun l => (l.filter (fun x => decide (x.1 = i))).map Prod.snd) h
    simp only [Inputs.blake2p] at h1
    rw [filter_leaf _ P i hi, filter_leaf _ P i hi] at h1
    exact blake2Node_inj hw hw' (fun θ => blake2pNode w P n θ 0 i) (fun _ => ⟨rfl, rfl, rfl⟩) ok ok' h1
  exact ⟨(hi 0 hP).1, stripes_inj (by omega) hP fun i h => (hi i h).2⟩

/-! ### Skein -/

theorem tweak_pos (type pos : Nat) (a b : Bool) (h : pos < 2 ^ 120) : Spec.Skein.tweak type pos a b % 2 ^ 120 = pos := by
  unfold Spec.Skein.tweak
  cases a <;> cases b <;> simp only [if_true, if_false, Bool.false_eq_true] <;> omega

theorem tweak_type (type pos : Nat) (a b : Bool) (h : pos < 2 ^ 120) (ht : type < 64) : Spec.Skein.tweak type pos a b / 2 ^ 120 % 64 = type := by
  unfold Spec.Skein.tweak
  cases a <;> cases b <;> simp only [if_true, if_false, Bool.false_eq_true] <;> omega

theorem ubi_inj {nw type : Nat} (hn : 0 < nw) {data data' : Bytes} (hd : data.length < 2 ^ 64) (hd' : data'.length < 2 ^ 64)
    (h : Inputs.ubi nw data type = Inputs.ubi nw data' type) : data = data' := by
  unfold Inputs.ubi at h
  dsimp only at h
  refine counted_inj (bs := 8 * nw) (by omega) rfl rfl ?_
  have h := congrArg (List.map fun x : Nat × Bytes => (x.1 % 2 ^ 120, x.2)) h
  rw [List.map_map, List.map_map] at h
  have e : ∀ {d : Bytes} {k : Nat} {P : Bytes}, d.length < 2 ^ 64 → ((fun x : Nat × Bytes => (x.1 % 2 ^ 120, x.2)) ∘ fun i =>
      (Spec.Skein.tweak type (min ((i + 1) * (8 * nw)) d.length) (decide (i = 0)) (decide (i + 1 = k)), blockAt (8 * nw) i P))
      = fun i => (min ((i + 1) * (8 * nw)) d.length, blockAt (8 * nw) i P) := by
    intro d k P hd
    funext i
    show (_ % _, _) = _
    rw [tweak_pos _ _ _ _ (by omega)]
  rwa [e hd, e hd'] at h

theorem ubi_filter {nw type t : Nat} (ht : type < 64) {data : Bytes} (hd : data.length < 2 ^ 64) :
    (Inputs.ubi nw data type).filter (fun x => decide (x.1 / 2 ^ 120 % 64 = t)) = if type = t then Inputs.ubi nw data type else [] := by
  have e : ∀ x ∈ Inputs.ubi nw data type, x.1 / 2 ^ 120 % 64 = type := by
    intro x hx
    unfold Inputs.ubi at hx
    obtain ⟨i, _, rfl⟩ := List.mem_map.1 hx
    exact tweak_type _ _ _ _ (by omega) ht
  split
  · subst_vars
    exact List.filter_eq_self.2 fun x hx => by rw [e x hx]; simp
  · rename_i h
    exact List.filter_eq_nil_iff.2 fun x hx => by rw [e x hx]; simpa using h

theorem ubiOpt_filter {nw type t : Nat} (ht : type < 64) {data : Bytes} (hd : data.length < 2 ^ 64) :
    (Inputs.ubiOpt nw data type).filter (fun x => decide (x.1 / 2 ^ 120 % 64 = t)) = if type = t then Inputs.ubiOpt nw data type else [] := by
  unfold Inputs.ubiOpt
  by_cases h : data = []
  · rw [if_pos h]; split <;> rfl
  · rw [if_neg h]; exact ubi_filter ht hd

theorem ubiOpt_inj {nw type : Nat} (hn : 0 < nw) {data data' : Bytes} (hd : data.length < 2 ^ 64) (hd' : data'.length < 2 ^ 64)
    (h : Inputs.ubiOpt nw data type = Inputs.ubiOpt nw data' type) : data = data' := by
  have hne : ∀ d, Inputs.ubi nw d type ≠ [] := by
    intro d e
    have := congrArg List.length e
    unfold Inputs.ubi at this
    simp only [List.length_map, List.length_range, List.length_nil] at this
    omega
  unfold Inputs.ubiOpt at h
  split at h <;> split at h
  · subst_vars; rfl
  · exact absurd h.symm (hne _)
  · exact absurd h (hne _)
  · exact ubi_inj hn hd hd' h

theorem skein_inj {nw bits : Nat} (hn : 0 < nw) {θ θ' : Spec.Skein.Theta} {msg msg' : Bytes} (ok : SkeinOk θ msg) (ok' : SkeinOk θ' msg')
    (h : skeinInputs nw bits θ msg = skeinInputs nw bits θ' msg') : θ = θ' ∧ msg = msg' := by
  have hc : (Spec.Skein.config bits).length < 2 ^ 64 := by
    unfold Spec.Skein.config
    simp only [List.length_append, length_leBytes, List.length_replicate, List.length_cons, List.length_nil]
    decide
  have f : ∀ t, ((skeinInputs nw bits θ msg).filter (fun x => decide (x.1 / 2 ^ 120 % 64 = t)))
      = ((skeinInputs nw bits θ' msg').filter (fun x => decide (x.1 / 2 ^ 120 % 64 = t))) := fun t => by rw [h]
  simp only [skeinInputs, List.filter_append] at f
  obtain ⟨k, p, n, m⟩ := ok
  obtain ⟨k', p', n', m'⟩ := ok'
  have f0 := f 0
  have f8 := f 8
  have f20 := f 20
  have f48 := f 48
  rw [ubiOpt_filter (by decide) k, ubiOpt_filter (by decide) k', ubi_filter (by decide) hc, ubiOpt_filter (by decide) p,
    ubiOpt_filter (by decide) p', ubiOpt_filter (by decide) n, ubiOpt_filter (by decide) n', ubi_filter (by decide) m,
    ubi_filter (by decide) m'] at f0 f8 f20 f48
  simp only [Nat.reduceEqDiff, if_true, if_false, List.append_nil, List.nil_append] at f0 f8 f20 f48
  cases θ
  cases θ'
  cases ubiOpt_inj hn k k' f0
  cases ubiOpt_inj hn p p' f8
  cases ubiOpt_inj hn n n' f20
  exact ⟨rfl, ubi_inj hn m m' f48⟩

theorem skein_det (T : Spec.Skein.Threefish) (hn : 0 < T.nw) (n : Nat) : (Inputs.skein T n).Determines SkeinOk :=
  fun _ _ _ _ ok ok' h => skein_inj hn ok ok' h

theorem skeinXof_det (T : Spec.Skein.Threefish) (hn : 0 < T.nw) : (Inputs.skeinXof T).Determines SkeinOk :=
  fun _ _ _ _ ok ok' h => skein_inj hn ok ok' h

/-! ### Sponges -/

theorem sha3_det (d : Nat) (hd : 2 * d / 8 < 200) : (Inputs.sha3 d).Determines fun _ _ => True :=
  unit_det fun msg msg' h => by
    have h0 : 0 < 200 - 2 * d / 8 := by omega
    simp only [Inputs.sha3, Keccak.padded_sha3 _ _ h0] at h
    exact (Keccak.padD_inj (by decide) (by decide) (chunks_inj (Keccak.length_padD _ h0 _ _) (Keccak.length_padD _ h0 _ _) h)).1

theorem shake_det (b : Nat) (hb : 2 * b / 8 < 200) : (Inputs.shake b).Determines fun _ _ => True :=
  unit_det fun msg msg' h => by
    have h0 : 0 < 200 - 2 * b / 8 := by omega
    simp only [Inputs.shake, Keccak.padded_shake _ _ h0] at h
    exact (Keccak.padD_inj (by decide) (by decide) (chunks_inj (Keccak.length_padD _ h0 _ _) (Keccak.length_padD _ h0 _ _) h)).1

theorem blocks_flatten (bs n : Nat) (msg : Bytes) (h : n * bs ≤ msg.length) :
    ((List.range n).map fun i => blockAt bs i msg).flatten = msg.take (n * bs) := by
  induction n with
  | zero => simp
  | succ n ih =>
    rw [Nat.add_mul, Nat.one_mul] at h
    rw [List.range_succ, List.map_append, List.flatten_append, ih (by omega), List.map_cons, List.map_nil, List.flatten_cons,
      List.flatten_nil, List.append_nil, Nat.add_mul, Nat.one_mul, List.take_add]
    rfl

theorem esch_inj {dom : BitVec 32} {msg msg' : Bytes} (h : eschInputs dom msg = eschInputs dom msg') : msg = msg' := by
  have hne : (1 ^^^ dom : BitVec 32) ≠ 2 ^^^ dom := fun h => by
    have := congrArg (· ^^^ dom) h
    simp only [BitVec.xor_assoc, BitVec.xor_self, BitVec.xor_zero] at this
    exact absurd this (by decide)
  unfold eschInputs at h
  dsimp only at h
  obtain ⟨h1, h2⟩ := List.append_inj' h rfl
  have hn : (msg.length - 1) / 16 = (msg'.length - 1) / 16 := by simpa using congrArg List.length h1
  rw [← hn] at h1 h2
  generalize hk : (msg.length - 1) / 16 = n at h1 h2 hn
  have h1 := congrArg (List.map Prod.snd) h1
  rw [List.map_map, List.map_map] at h1
  have h1 : msg.take (n * 16) = msg'.take (n * 16) := by
    rw [← blocks_flatten 16 n msg (by omega), ← blocks_flatten 16 n msg' (by omega)]
    exact congrArg List.flatten h1
  have hl : (msg.drop (16 * n)).length ≤ 16 := by rw [List.length_drop]; omega
  have hl' : (msg'.drop (16 * n)).length ≤ 16 := by rw [List.length_drop]; omega
  injection h2 with h2 _
  have h3 : msg.drop (16 * n) = msg'.drop (16 * n) := by
    generalize msg.drop (16 * n) = a at h2 hl
    generalize msg'.drop (16 * n) = a' at h2 hl'
    split at h2 <;> split at h2 <;> injection h2 with h4 h5
    · exact (zeros_inj (by decide) (by decide) h5).1
    · injection h4 with h4; exact absurd h4 hne
    · injection h4 with h4; exact absurd h4.symm hne
  rw [← List.take_append_drop (n * 16) msg, ← List.take_append_drop (n * 16) msg', h1, Nat.mul_comm n 16, h3]

theorem esch_det (F : Spec.Esch.Family) (n : Nat) : (Inputs.esch F n).Determines fun _ _ => True := unit_det fun _ _ h => esch_inj h
theorem eschXof_det (F : Spec.Esch.Family) : (Inputs.eschXof F).Determines fun _ _ => True := unit_det fun _ _ h => esch_inj h

theorem asconHash_det : Inputs.asconHash.Determines fun _ _ => True := unit_det fun _ _ h => one_chunks (by decide) (by decide) h
theorem asconXof_det : Inputs.asconXof.Determines fun _ _ => True := unit_det fun _ _ h => one_chunks (by decide) (by decide) h

theorem asconCxof_det : Inputs.asconCxof.Determines fun z _ => z.length < 2 ^ 61 := by
  intro z z' msg msg' hz hz' h
  have hl : ∀ z msg, (leBytes 8 (8 * z.length) ++ Spec.Ascon.pad z ++ Spec.Ascon.pad msg).length % 8 = 0 := by
    intro z msg
    rw [List.length_append, List.length_append, length_leBytes]
    have h1 := Ascon.length_pad z
    have h2 := Ascon.length_pad msg
    omega
  have h := chunks_inj (hl _ _) (hl _ _) h
  rw [List.append_assoc, List.append_assoc] at h
  obtain ⟨h1, h2⟩ := List.append_inj h (by rw [length_leBytes, length_leBytes])
  have h1 := congrArg leNat h1
  rw [leNat_leBytes, leNat_leBytes, Nat.mod_eq_of_lt (by omega), Nat.mod_eq_of_lt (by omega)] at h1
  have hp : (Spec.Ascon.pad z).length = (Spec.Ascon.pad z').length := by
    unfold Spec.Ascon.pad
    simp only [List.length_append, List.length_singleton, List.length_replicate]
    rw [show z.length = z'.length by omega]
  obtain ⟨h3, h4⟩ := List.append_inj h2 hp
  exact ⟨(zeros_inj (by decide) (by decide) h3).1, (zeros_inj (by decide) (by decide) h4).1⟩

theorem k12_inj (R r c : Nat) (h0 : 0 < r) (C C' msg msg' : Bytes) (hC : C.length < 2 ^ 64) (hC' : C'.length < 2 ^ 64)
    (h : Inputs.k12 R r c C msg = Inputs.k12 R r c C' msg') : C = C' ∧ msg = msg' := by
  have hS : msg ++ C ++ Spec.K12.lengthEncode C.length = msg' ++ C' ++ Spec.K12.lengthEncode C'.length := by
    unfold Inputs.k12 at h
    dsimp only at h
    generalize msg ++ C ++ Spec.K12.lengthEncode C.length = S at h
    generalize msg' ++ C' ++ Spec.K12.lengthEncode C'.length = S' at h
    have inj : ∀ {d d' : Byte} {a a' : Bytes}, d ≠ 0 → d' ≠ 0 → chunks r (Spec.Keccak.padD r d a) = chunks r (Spec.Keccak.padD r d' a') → a = a' ∧ d = d' :=
      fun h1 h2 h => Keccak.padD_inj h1 h2 (chunks_inj (Keccak.length_padD _ h0 _ _) (Keccak.length_padD _ h0 _ _) h)
    split at h <;> split at h
    · injection h with h _
      exact (inj (by decide) (by decide) h).1
    · injection h with h _
      exact absurd (inj (by decide) (by decide) h).2 (by decide)
    · injection h with h _
      exact absurd (inj (by decide) (by decide) h).2 (by decide)
    · rename_i hs hs'
      injection h with h1 h2
      have h1 := (inj (by decide) (by decide) h1).1
      have hp : ∀ {S : Bytes}, ¬ S.length ≤ 8192 → (Spec.K12.piece 0 S).length = 8192 := by
        intro S hs
        unfold Spec.K12.piece blockAt
        rw [List.length_take, List.length_drop]
        omega
      simp only [List.append_assoc] at h1
      have hp0 := (List.append_inj h1 (by rw [hp hs, hp hs'])).1
      have hn : Spec.K12.count S - 1 = Spec.K12.count S' - 1 := by simpa using congrArg List.length h2
      apply ext_blocks (bs := 8192) (by decide)
      intro j
      cases j with
      | zero => exact hp0
      | succ j =>
        by_cases hj : j < Spec.K12.count S - 1
        · have h3 := congrArg (fun l => l[j]?) h2
          simp only [List.getElem?_map, List.getElem?_range hj, List.getElem?_range (hn ▸ hj), Option.map_some] at h3
          exact (inj (by decide) (by decide) (Option.some.inj h3)).1
        · have e : ∀ {S : Bytes}, ¬ j < Spec.K12.count S - 1 → blockAt 8192 (j + 1) S = [] := by
            intro S hj
            unfold Spec.K12.count at hj
            unfold blockAt
            rw [List.drop_of_length_le (by omega), List.take_nil]
          rw [e hj, e (hn ▸ hj)]
  obtain ⟨hl, hS⟩ := Encode.lengthEncode_inj hC hC' hS
  obtain ⟨h1, h2⟩ := List.append_inj' hS hl
  exact ⟨h2, h1⟩

end Digestpp.Proofs.Inputs
