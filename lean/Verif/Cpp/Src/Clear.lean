import Verif.Cpp.Src.Functions

/-! C71. `clear` of eighteen providers. The arrays are the members that are arrays (or a union of arrays), in the order of their declarations, followed by the characters of the strings. The variables are the lengths of the strings, in the order of their declarations, followed in BLAKE2 by `fanout`, `nodedepth` and `nodeoffset`. Written by tools/cpp2lean.py from the text of the library. -/

namespace Digestpp.Cpp.Src.Clear

/-- md5_provider.hpp 188, 189: the number of bytes of each array of the object: `H`, `m`. -/
def md5_bytes : List Nat := [16, 64]


/-- md5_provider.hpp 94-98. -/
def md5 : Stmt := block [
    -- 96: zero_memory(H);
    .memset (.addr 0 (.lit (.i32 0))) (.lit (.i32 0)) (.lit (.u64 16)),
    -- 97: zero_memory(m);
    .memset (.addr 1 (.lit (.i32 0))) (.lit (.i32 0)) (.lit (.u64 64))
  ]

/-- sha1_provider.hpp 152, 153: the number of bytes of each array of the object: `H`, `m`. -/
def sha1_bytes : List Nat := [20, 64]


/-- sha1_provider.hpp 87-91. -/
def sha1 : Stmt := block [
    -- 89: zero_memory(H);
    .memset (.addr 0 (.lit (.i32 0))) (.lit (.i32 0)) (.lit (.u64 20)),
    -- 90: zero_memory(m);
    .memset (.addr 1 (.lit (.i32 0))) (.lit (.i32 0)) (.lit (.u64 64))
  ]

/-- sha2_provider.hpp 268, 269: the number of bytes of each array of the object: `H`, `m`. -/
def sha256_bytes : List Nat := [32, 64]


/-- sha2_provider.hpp 208-212. -/
def sha256 : Stmt := block [
    -- 210: zero_memory(H);
    .memset (.addr 0 (.lit (.i32 0))) (.lit (.i32 0)) (.lit (.u64 32)),
    -- 211: zero_memory(m);
    .memset (.addr 1 (.lit (.i32 0))) (.lit (.i32 0)) (.lit (.u64 64))
  ]

/-- sha2_provider.hpp 268, 269: the number of bytes of each array of the object: `H`, `m`. -/
def sha512_bytes : List Nat := [64, 128]


/-- sha2_provider.hpp 208-212. -/
def sha512 : Stmt := block [
    -- 210: zero_memory(H);
    .memset (.addr 0 (.lit (.i32 0))) (.lit (.i32 0)) (.lit (.u64 64)),
    -- 211: zero_memory(m);
    .memset (.addr 1 (.lit (.i32 0))) (.lit (.i32 0)) (.lit (.u64 128))
  ]

/-- sha3_provider.hpp 184, 185: the number of bytes of each array of the object: `A`, `m`. -/
def sha3_bytes : List Nat := [200, 144]


/-- sha3_provider.hpp 177-181. -/
def sha3 : Stmt := block [
    -- 179: zero_memory(A);
    .memset (.addr 0 (.lit (.i32 0))) (.lit (.i32 0)) (.lit (.u64 200)),
    -- 180: zero_memory(m);
    .memset (.addr 1 (.lit (.i32 0))) (.lit (.i32 0)) (.lit (.u64 144))
  ]

/-- whirlpool_provider.hpp 132, 133: the number of bytes of each array of the object: `h`, `m`. -/
def whirlpool_bytes : List Nat := [64, 64]


/-- whirlpool_provider.hpp 80-84. -/
def whirlpool : Stmt := block [
    -- 82: zero_memory(h);
    .memset (.addr 0 (.lit (.i32 0))) (.lit (.i32 0)) (.lit (.u64 64)),
    -- 83: zero_memory(m);
    .memset (.addr 1 (.lit (.i32 0))) (.lit (.i32 0)) (.lit (.u64 64))
  ]

/-- ascon_provider.hpp 176, 177: the number of bytes of each array of the object: `H`, `m`. -/
def ascon_bytes : List Nat := [40, 64]


/-- ascon_provider.hpp 131-135. -/
def ascon : Stmt := block [
    -- 133: zero_memory(H);
    .memset (.addr 0 (.lit (.i32 0))) (.lit (.i32 0)) (.lit (.u64 40)),
    -- 134: zero_memory(m);
    .memset (.addr 1 (.lit (.i32 0))) (.lit (.i32 0)) (.lit (.u64 64))
  ]

/-- esch_provider.hpp 207, 208: the number of bytes of each array of the object: `H`, `m`. -/
def esch256_bytes : List Nat := [48, 128]


/-- esch_provider.hpp 167-171. -/
def esch256 : Stmt := block [
    -- 169: zero_memory(H);
    .memset (.addr 0 (.lit (.i32 0))) (.lit (.i32 0)) (.lit (.u64 48)),
    -- 170: zero_memory(m);
    .memset (.addr 1 (.lit (.i32 0))) (.lit (.i32 0)) (.lit (.u64 128))
  ]

/-- esch_provider.hpp 207, 208: the number of bytes of each array of the object: `H`, `m`. -/
def esch384_bytes : List Nat := [64, 128]


/-- esch_provider.hpp 167-171. -/
def esch384 : Stmt := block [
    -- 169: zero_memory(H);
    .memset (.addr 0 (.lit (.i32 0))) (.lit (.i32 0)) (.lit (.u64 64)),
    -- 170: zero_memory(m);
    .memset (.addr 1 (.lit (.i32 0))) (.lit (.i32 0)) (.lit (.u64 128))
  ]

/-- sm3_provider.hpp 178, 179: the number of bytes of each array of the object: `H`, `m`. -/
def sm3_bytes : List Nat := [32, 64]


/-- sm3_provider.hpp 100-104. -/
def sm3 : Stmt := block [
    -- 102: zero_memory(H);
    .memset (.addr 0 (.lit (.i32 0))) (.lit (.i32 0)) (.lit (.u64 32)),
    -- 103: zero_memory(m);
    .memset (.addr 1 (.lit (.i32 0))) (.lit (.i32 0)) (.lit (.u64 64))
  ]

/-- jh_provider.hpp 212, 213: the number of bytes of each array of the object: `H`, `m`. -/
def jh_bytes : List Nat := [128, 64]


/-- jh_provider.hpp 161-165. -/
def jh : Stmt := block [
    -- 163: zero_memory(H);
    .memset (.addr 0 (.lit (.i32 0))) (.lit (.i32 0)) (.lit (.u64 128)),
    -- 164: zero_memory(m);
    .memset (.addr 1 (.lit (.i32 0))) (.lit (.i32 0)) (.lit (.u64 64))
  ]

/-- groestl_provider.hpp 199, 200: the number of bytes of each array of the object: `h`, `m`. -/
def groestl_bytes : List Nat := [128, 128]


/-- groestl_provider.hpp 169-173. -/
def groestl : Stmt := block [
    -- 171: zero_memory(h);
    .memset (.addr 0 (.lit (.i32 0))) (.lit (.i32 0)) (.lit (.u64 128)),
    -- 172: zero_memory(m);
    .memset (.addr 1 (.lit (.i32 0))) (.lit (.i32 0)) (.lit (.u64 128))
  ]

/-- kupyna_provider.hpp 193, 194: the number of bytes of each array of the object: `h`, `m`. -/
def kupyna_bytes : List Nat := [128, 128]


/-- kupyna_provider.hpp 163-167. -/
def kupyna : Stmt := block [
    -- 165: zero_memory(h);
    .memset (.addr 0 (.lit (.i32 0))) (.lit (.i32 0)) (.lit (.u64 128)),
    -- 166: zero_memory(m);
    .memset (.addr 1 (.lit (.i32 0))) (.lit (.i32 0)) (.lit (.u64 128))
  ]

/-- streebog_provider.hpp 178, 179, 180: the number of bytes of each array of the object: `h`, `S`, `m`. -/
def streebog_bytes : List Nat := [64, 64, 64]


/-- streebog_provider.hpp 157-162. -/
def streebog : Stmt := block [
    -- 159: zero_memory(h);
    .memset (.addr 0 (.lit (.i32 0))) (.lit (.i32 0)) (.lit (.u64 64)),
    -- 160: zero_memory(S);
    .memset (.addr 1 (.lit (.i32 0))) (.lit (.i32 0)) (.lit (.u64 64)),
    -- 161: zero_memory(m);
    .memset (.addr 2 (.lit (.i32 0))) (.lit (.i32 0)) (.lit (.u64 64))
  ]

/-- echo_provider.hpp 280, 281: the number of bytes of each array of the object: `h`, `salt`. -/
def echo_bytes : List Nat := [256, 16]


/-- echo_provider.hpp 236-240. -/
def echo : Stmt := block [
    -- 238: zero_memory(h);
    .memset (.addr 0 (.lit (.i32 0))) (.lit (.i32 0)) (.lit (.u64 256)),
    -- 239: zero_memory(salt);
    .memset (.addr 1 (.lit (.i32 0))) (.lit (.i32 0)) (.lit (.u64 16))
  ]

/-- lsh_provider.hpp 225, 226, 227, 228: the number of bytes of each array of the object: `cv`, `t`, `msgexp`, `m`. -/
def lsh256_bytes : List Nat := [64, 64, 1728, 128]


/-- lsh_provider.hpp 132-138. -/
def lsh256 : Stmt := block [
    -- 134: zero_memory(cv);
    .memset (.addr 0 (.lit (.i32 0))) (.lit (.i32 0)) (.lit (.u64 64)),
    -- 135: zero_memory(t);
    .memset (.addr 1 (.lit (.i32 0))) (.lit (.i32 0)) (.lit (.u64 64)),
    -- 136: zero_memory(m);
    .memset (.addr 3 (.lit (.i32 0))) (.lit (.i32 0)) (.lit (.u64 128)),
    -- 137: zero_memory(msgexp);
    .memset (.addr 2 (.lit (.i32 0))) (.lit (.i32 0)) (.lit (.u64 1728))
  ]

/-- lsh_provider.hpp 225, 226, 227, 228: the number of bytes of each array of the object: `cv`, `t`, `msgexp`, `m`. -/
def lsh512_bytes : List Nat := [128, 128, 3712, 256]


/-- lsh_provider.hpp 132-138. -/
def lsh512 : Stmt := block [
    -- 134: zero_memory(cv);
    .memset (.addr 0 (.lit (.i32 0))) (.lit (.i32 0)) (.lit (.u64 128)),
    -- 135: zero_memory(t);
    .memset (.addr 1 (.lit (.i32 0))) (.lit (.i32 0)) (.lit (.u64 128)),
    -- 136: zero_memory(m);
    .memset (.addr 3 (.lit (.i32 0))) (.lit (.i32 0)) (.lit (.u64 256)),
    -- 137: zero_memory(msgexp);
    .memset (.addr 2 (.lit (.i32 0))) (.lit (.i32 0)) (.lit (.u64 3712))
  ]

/-- blake_provider.hpp 299, 300: the number of bytes of each array of the object: `u`, `m`. -/
def blake_bytes : List Nat := [96, 128]


/-- blake_provider.hpp 280-284. -/
def blake : Stmt := block [
    -- 282: zero_memory(u.H512);
    .memset (.addr 0 (.lit (.i32 0))) (.lit (.i32 0)) (.lit (.u64 96)),
    -- 283: zero_memory(m);
    .memset (.addr 1 (.lit (.i32 0))) (.lit (.i32 0)) (.lit (.u64 128))
  ]

/-- shake_provider.hpp 169, 170: the number of bytes of each array of the object: `A`, `m`. -/
def shake_bytes : List Nat := [200, 168]


/-- shake_provider.hpp 158-166. -/
def shake : Stmt := block [
    -- 160: zero_memory(A);
    .memset (.addr 0 (.lit (.i32 0))) (.lit (.i32 0)) (.lit (.u64 200)),
    -- 161: zero_memory(m);
    .memset (.addr 1 (.lit (.i32 0))) (.lit (.i32 0)) (.lit (.u64 168)),
    -- 162: zero_memory(N);
    .ite (.bin .ne (.var 0) (.lit (.i32 0))) (.memset (.addr 2 (.lit (.i32 0))) (.lit (.i32 0)) (.var 0)) .skip,
    -- 163: zero_memory(S);
    .ite (.bin .ne (.var 1) (.lit (.i32 0))) (.memset (.addr 3 (.lit (.i32 0))) (.lit (.i32 0)) (.var 1)) .skip,
    -- 164: N.clear();
    .set 0 (.lit (.i32 0)),
    -- 165: S.clear();
    .set 1 (.lit (.i32 0))
  ]

/-- blake2_provider.hpp 377, 378, 379, 381: the number of bytes of each array of the object: `H`, `s`, `p`, `m`. -/
def blake2b_bytes : List Nat := [64, 16, 16, 128]


/-- blake2_provider.hpp 289-300. -/
def blake2b : Stmt := block [
    -- 291: zero_memory(H);
    .memset (.addr 0 (.lit (.i32 0))) (.lit (.i32 0)) (.lit (.u64 64)),
    -- 292: zero_memory(m);
    .memset (.addr 3 (.lit (.i32 0))) (.lit (.i32 0)) (.lit (.u64 128)),
    -- 293: zero_memory(s);
    .memset (.addr 1 (.lit (.i32 0))) (.lit (.i32 0)) (.lit (.u64 16)),
    -- 294: zero_memory(p);
    .memset (.addr 2 (.lit (.i32 0))) (.lit (.i32 0)) (.lit (.u64 16)),
    -- 295: zero_memory(k);
    .ite (.bin .ne (.var 0) (.lit (.i32 0))) (.memset (.addr 4 (.lit (.i32 0))) (.lit (.i32 0)) (.var 0)) .skip,
    -- 296: k.clear();
    .set 0 (.lit (.i32 0)),
    -- 297: fanout = 0;
    .set 1 (.lit (.i32 0)),
    -- 298: nodedepth = 0;
    .set 2 (.lit (.i32 0)),
    -- 299: nodeoffset = 0;
    .set 3 (.lit (.i32 0))
  ]

/-- blake2_provider.hpp 377, 378, 379, 381: the number of bytes of each array of the object: `H`, `s`, `p`, `m`. -/
def blake2s_bytes : List Nat := [32, 8, 8, 64]


/-- blake2_provider.hpp 289-300. -/
def blake2s : Stmt := block [
    -- 291: zero_memory(H);
    .memset (.addr 0 (.lit (.i32 0))) (.lit (.i32 0)) (.lit (.u64 32)),
    -- 292: zero_memory(m);
    .memset (.addr 3 (.lit (.i32 0))) (.lit (.i32 0)) (.lit (.u64 64)),
    -- 293: zero_memory(s);
    .memset (.addr 1 (.lit (.i32 0))) (.lit (.i32 0)) (.lit (.u64 8)),
    -- 294: zero_memory(p);
    .memset (.addr 2 (.lit (.i32 0))) (.lit (.i32 0)) (.lit (.u64 8)),
    -- 295: zero_memory(k);
    .ite (.bin .ne (.var 0) (.lit (.i32 0))) (.memset (.addr 4 (.lit (.i32 0))) (.lit (.i32 0)) (.var 0)) .skip,
    -- 296: k.clear();
    .set 0 (.lit (.i32 0)),
    -- 297: fanout = 0;
    .set 1 (.lit (.i32 0)),
    -- 298: nodedepth = 0;
    .set 2 (.lit (.i32 0)),
    -- 299: nodeoffset = 0;
    .set 3 (.lit (.i32 0))
  ]

/-- skein_provider.hpp 380, 381, 384: the number of bytes of each array of the object: `H`, `hbk`, `m`, `tweak`. -/
def skein256_bytes : List Nat := [32, 32, 32, 16]


/-- skein_provider.hpp 300-312. -/
def skein256 : Stmt := block [
    -- 302: zero_memory(H);
    .memset (.addr 0 (.lit (.i32 0))) (.lit (.i32 0)) (.lit (.u64 32)),
    -- 303: zero_memory(hbk);
    .memset (.addr 1 (.lit (.i32 0))) (.lit (.i32 0)) (.lit (.u64 32)),
    -- 304: zero_memory(m);
    .memset (.addr 2 (.lit (.i32 0))) (.lit (.i32 0)) (.lit (.u64 32)),
    -- 305: zero_memory(tweak);
    .memset (.addr 3 (.lit (.i32 0))) (.lit (.i32 0)) (.lit (.u64 16)),
    -- 306: zero_memory(p);
    .ite (.bin .ne (.var 0) (.lit (.i32 0))) (.memset (.addr 4 (.lit (.i32 0))) (.lit (.i32 0)) (.var 0)) .skip,
    -- 307: zero_memory(n);
    .ite (.bin .ne (.var 1) (.lit (.i32 0))) (.memset (.addr 5 (.lit (.i32 0))) (.lit (.i32 0)) (.var 1)) .skip,
    -- 308: zero_memory(k);
    .ite (.bin .ne (.var 2) (.lit (.i32 0))) (.memset (.addr 6 (.lit (.i32 0))) (.lit (.i32 0)) (.var 2)) .skip,
    -- 309: p.clear();
    .set 0 (.lit (.i32 0)),
    -- 310: n.clear();
    .set 1 (.lit (.i32 0)),
    -- 311: k.clear();
    .set 2 (.lit (.i32 0))
  ]

/-- skein_provider.hpp 380, 381, 384: the number of bytes of each array of the object: `H`, `hbk`, `m`, `tweak`. -/
def skein512_bytes : List Nat := [64, 64, 64, 16]


/-- skein_provider.hpp 300-312. -/
def skein512 : Stmt := block [
    -- 302: zero_memory(H);
    .memset (.addr 0 (.lit (.i32 0))) (.lit (.i32 0)) (.lit (.u64 64)),
    -- 303: zero_memory(hbk);
    .memset (.addr 1 (.lit (.i32 0))) (.lit (.i32 0)) (.lit (.u64 64)),
    -- 304: zero_memory(m);
    .memset (.addr 2 (.lit (.i32 0))) (.lit (.i32 0)) (.lit (.u64 64)),
    -- 305: zero_memory(tweak);
    .memset (.addr 3 (.lit (.i32 0))) (.lit (.i32 0)) (.lit (.u64 16)),
    -- 306: zero_memory(p);
    .ite (.bin .ne (.var 0) (.lit (.i32 0))) (.memset (.addr 4 (.lit (.i32 0))) (.lit (.i32 0)) (.var 0)) .skip,
    -- 307: zero_memory(n);
    .ite (.bin .ne (.var 1) (.lit (.i32 0))) (.memset (.addr 5 (.lit (.i32 0))) (.lit (.i32 0)) (.var 1)) .skip,
    -- 308: zero_memory(k);
    .ite (.bin .ne (.var 2) (.lit (.i32 0))) (.memset (.addr 6 (.lit (.i32 0))) (.lit (.i32 0)) (.var 2)) .skip,
    -- 309: p.clear();
    .set 0 (.lit (.i32 0)),
    -- 310: n.clear();
    .set 1 (.lit (.i32 0)),
    -- 311: k.clear();
    .set 2 (.lit (.i32 0))
  ]

/-- skein_provider.hpp 380, 381, 384: the number of bytes of each array of the object: `H`, `hbk`, `m`, `tweak`. -/
def skein1024_bytes : List Nat := [128, 128, 128, 16]


/-- skein_provider.hpp 300-312. -/
def skein1024 : Stmt := block [
    -- 302: zero_memory(H);
    .memset (.addr 0 (.lit (.i32 0))) (.lit (.i32 0)) (.lit (.u64 128)),
    -- 303: zero_memory(hbk);
    .memset (.addr 1 (.lit (.i32 0))) (.lit (.i32 0)) (.lit (.u64 128)),
    -- 304: zero_memory(m);
    .memset (.addr 2 (.lit (.i32 0))) (.lit (.i32 0)) (.lit (.u64 128)),
    -- 305: zero_memory(tweak);
    .memset (.addr 3 (.lit (.i32 0))) (.lit (.i32 0)) (.lit (.u64 16)),
    -- 306: zero_memory(p);
    .ite (.bin .ne (.var 0) (.lit (.i32 0))) (.memset (.addr 4 (.lit (.i32 0))) (.lit (.i32 0)) (.var 0)) .skip,
    -- 307: zero_memory(n);
    .ite (.bin .ne (.var 1) (.lit (.i32 0))) (.memset (.addr 5 (.lit (.i32 0))) (.lit (.i32 0)) (.var 1)) .skip,
    -- 308: zero_memory(k);
    .ite (.bin .ne (.var 2) (.lit (.i32 0))) (.memset (.addr 6 (.lit (.i32 0))) (.lit (.i32 0)) (.var 2)) .skip,
    -- 309: p.clear();
    .set 0 (.lit (.i32 0)),
    -- 310: n.clear();
    .set 1 (.lit (.i32 0)),
    -- 311: k.clear();
    .set 2 (.lit (.i32 0))
  ]

end Digestpp.Cpp.Src.Clear
