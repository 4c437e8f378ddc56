import Verif.Cpp.Src.Absorb
import Verif.Model.Tables.Whirlpool

/-! C71. `transform`, `init`, `update` and `final` of `whirlpool_provider.hpp` and what they call. Array 0 is what `data` or `hash` points to, 1 is `m`, 2 is `h`, 3 is `K`, 4 is `state`, 5 is `L`. Variables are the parameters, followed by `pos` and `total`. Written by tools/cpp2lean.py from the text of the library. -/

namespace Digestpp.Cpp.Src.Whirlpool
open Absorb

/-- whirlpool_provider.hpp 22-32: `G`. -/
def G (a : Expr) : Expr := .cast .u64 (.bin .xor (.bin .xor (.bin .xor (.bin .xor (.bin .xor (.bin .xor (.bin .xor (.tab (.a64 (Model.whirlpool_T.getD 0 [])) (.cast .u8 (.at (.arg 0) (.bin .mod a (.lit (.i32 8)))))) (.tab (.a64 (Model.whirlpool_T.getD 1 [])) (.cast .u8 (.bin .shr (.at (.arg 0) (.bin .mod (.bin .sub a (.lit (.i32 1))) (.lit (.i32 8)))) (.lit (.i32 8)))))) (.tab (.a64 (Model.whirlpool_T.getD 2 [])) (.cast .u8 (.bin .shr (.at (.arg 0) (.bin .mod (.bin .sub a (.lit (.i32 2))) (.lit (.i32 8)))) (.lit (.i32 16)))))) (.tab (.a64 (Model.whirlpool_T.getD 3 [])) (.cast .u8 (.bin .shr (.at (.arg 0) (.bin .mod (.bin .sub a (.lit (.i32 3))) (.lit (.i32 8)))) (.lit (.i32 24)))))) (.tab (.a64 (Model.whirlpool_T.getD 4 [])) (.cast .u8 (.bin .shr (.at (.arg 0) (.bin .mod (.bin .sub a (.lit (.i32 4))) (.lit (.i32 8)))) (.lit (.i32 32)))))) (.tab (.a64 (Model.whirlpool_T.getD 5 [])) (.cast .u8 (.bin .shr (.at (.arg 0) (.bin .mod (.bin .sub a (.lit (.i32 5))) (.lit (.i32 8)))) (.lit (.i32 40)))))) (.tab (.a64 (Model.whirlpool_T.getD 6 [])) (.cast .u8 (.bin .shr (.at (.arg 0) (.bin .mod (.bin .sub a (.lit (.i32 6))) (.lit (.i32 8)))) (.lit (.i32 48)))))) (.tab (.a64 (Model.whirlpool_T.getD 7 [])) (.cast .u8 (.bin .shr (.at (.arg 0) (.bin .mod (.bin .sub a (.lit (.i32 7))) (.lit (.i32 8)))) (.lit (.i32 56))))))

/-- whirlpool_provider.hpp 86-86: `hash_size`. -/
def hash_size : Expr := .cast .u64 (.lit (.i32 512))

/-- whirlpool_provider.hpp 96: `for (int i = 0; i < 8; ++i)`. -/
def for96 : Stmt := for' (.decl .i32 (.lit (.i32 0))) (.bin .lt (.var 3) (.lit (.i32 8))) (.set 3 (.bin .add (.var 3) (.lit (.i32 1)))) (block [
    -- 97: state[i] = h[i] ^ (reinterpret_cast<const uint64_t*>(mp)[i]);
    .store 4 (.var 3) (.bin .xor (.idx 2 (.var 3)) (.at (.recast 8 (.var 0)) (.var 3)))
  ])

/-- whirlpool_provider.hpp 99: `for (int r = 0; r < 10; ++r)`. -/
def for99 : Stmt := for' (.decl .i32 (.lit (.i32 0))) (.bin .lt (.var 3) (.lit (.i32 10))) (.set 3 (.bin .add (.var 3) (.lit (.i32 1)))) (block [
    -- 101: uint64_t L[8];
    -- 103: L[0] = whirlpool_functions::G<0 + 8>(K) ^ whirlpool_constants<void>::RC[r];
    .store 5 (.lit (.i32 0)) (.bin .xor (.ret (G (.bin .add (.lit (.i32 0)) (.lit (.i32 8)))) (.push (.addr 3 (.lit (.i32 0))) .nil)) (.tab (.a64 Model.whirlpool_RC) (.var 3))),
    -- 104: L[1] = whirlpool_functions::G<1 + 8>(K);
    .store 5 (.lit (.i32 1)) (.ret (G (.bin .add (.lit (.i32 1)) (.lit (.i32 8)))) (.push (.addr 3 (.lit (.i32 0))) .nil)),
    -- 105: L[2] = whirlpool_functions::G<2 + 8>(K);
    .store 5 (.lit (.i32 2)) (.ret (G (.bin .add (.lit (.i32 2)) (.lit (.i32 8)))) (.push (.addr 3 (.lit (.i32 0))) .nil)),
    -- 106: L[3] = whirlpool_functions::G<3 + 8>(K);
    .store 5 (.lit (.i32 3)) (.ret (G (.bin .add (.lit (.i32 3)) (.lit (.i32 8)))) (.push (.addr 3 (.lit (.i32 0))) .nil)),
    -- 107: L[4] = whirlpool_functions::G<4 + 8>(K);
    .store 5 (.lit (.i32 4)) (.ret (G (.bin .add (.lit (.i32 4)) (.lit (.i32 8)))) (.push (.addr 3 (.lit (.i32 0))) .nil)),
    -- 108: L[5] = whirlpool_functions::G<5 + 8>(K);
    .store 5 (.lit (.i32 5)) (.ret (G (.bin .add (.lit (.i32 5)) (.lit (.i32 8)))) (.push (.addr 3 (.lit (.i32 0))) .nil)),
    -- 109: L[6] = whirlpool_functions::G<6 + 8>(K);
    .store 5 (.lit (.i32 6)) (.ret (G (.bin .add (.lit (.i32 6)) (.lit (.i32 8)))) (.push (.addr 3 (.lit (.i32 0))) .nil)),
    -- 110: L[7] = whirlpool_functions::G<7 + 8>(K);
    .store 5 (.lit (.i32 7)) (.ret (G (.bin .add (.lit (.i32 7)) (.lit (.i32 8)))) (.push (.addr 3 (.lit (.i32 0))) .nil)),
    -- 112: memcpy(K, L, sizeof(L));
    .memcpy (.addr 3 (.lit (.i32 0))) (.addr 5 (.lit (.i32 0))) (.lit (.u64 64)),
    -- 114: L[0] ^= whirlpool_functions::G<0 + 8>(state);
    .store 5 (.lit (.i32 0)) (.bin .xor (.idx 5 (.lit (.i32 0))) (.ret (G (.bin .add (.lit (.i32 0)) (.lit (.i32 8)))) (.push (.addr 4 (.lit (.i32 0))) .nil))),
    -- 115: L[1] ^= whirlpool_functions::G<1 + 8>(state);
    .store 5 (.lit (.i32 1)) (.bin .xor (.idx 5 (.lit (.i32 1))) (.ret (G (.bin .add (.lit (.i32 1)) (.lit (.i32 8)))) (.push (.addr 4 (.lit (.i32 0))) .nil))),
    -- 116: L[2] ^= whirlpool_functions::G<2 + 8>(state);
    .store 5 (.lit (.i32 2)) (.bin .xor (.idx 5 (.lit (.i32 2))) (.ret (G (.bin .add (.lit (.i32 2)) (.lit (.i32 8)))) (.push (.addr 4 (.lit (.i32 0))) .nil))),
    -- 117: L[3] ^= whirlpool_functions::G<3 + 8>(state);
    .store 5 (.lit (.i32 3)) (.bin .xor (.idx 5 (.lit (.i32 3))) (.ret (G (.bin .add (.lit (.i32 3)) (.lit (.i32 8)))) (.push (.addr 4 (.lit (.i32 0))) .nil))),
    -- 118: L[4] ^= whirlpool_functions::G<4 + 8>(state);
    .store 5 (.lit (.i32 4)) (.bin .xor (.idx 5 (.lit (.i32 4))) (.ret (G (.bin .add (.lit (.i32 4)) (.lit (.i32 8)))) (.push (.addr 4 (.lit (.i32 0))) .nil))),
    -- 119: L[5] ^= whirlpool_functions::G<5 + 8>(state);
    .store 5 (.lit (.i32 5)) (.bin .xor (.idx 5 (.lit (.i32 5))) (.ret (G (.bin .add (.lit (.i32 5)) (.lit (.i32 8)))) (.push (.addr 4 (.lit (.i32 0))) .nil))),
    -- 120: L[6] ^= whirlpool_functions::G<6 + 8>(state);
    .store 5 (.lit (.i32 6)) (.bin .xor (.idx 5 (.lit (.i32 6))) (.ret (G (.bin .add (.lit (.i32 6)) (.lit (.i32 8)))) (.push (.addr 4 (.lit (.i32 0))) .nil))),
    -- 121: L[7] ^= whirlpool_functions::G<7 + 8>(state);
    .store 5 (.lit (.i32 7)) (.bin .xor (.idx 5 (.lit (.i32 7))) (.ret (G (.bin .add (.lit (.i32 7)) (.lit (.i32 8)))) (.push (.addr 4 (.lit (.i32 0))) .nil))),
    -- 123: memcpy(state, L, sizeof(L));
    .memcpy (.addr 4 (.lit (.i32 0))) (.addr 5 (.lit (.i32 0))) (.lit (.u64 64))
  ])

/-- whirlpool_provider.hpp 126: `for (int i = 0; i < 8; ++i)`. -/
def for126 : Stmt := for' (.decl .i32 (.lit (.i32 0))) (.bin .lt (.var 3) (.lit (.i32 8))) (.set 3 (.bin .add (.var 3) (.lit (.i32 1)))) (block [
    -- 127: h[i] ^= state[i] ^ reinterpret_cast<const uint64_t*>(mp)[i];
    .store 2 (.var 3) (.bin .xor (.idx 2 (.var 3)) (.bin .xor (.idx 4 (.var 3)) (.at (.recast 8 (.var 0)) (.var 3))))
  ])

/-- whirlpool_provider.hpp 91: `for (uint64_t b = 0; b < num_blks; b++)`. -/
def for91 : Stmt := for' (.decl .u64 (.lit (.i32 0))) (.bin .lt (.var 2) (.var 1)) (.set 2 (.bin .add (.var 2) (.lit (.i32 1)))) (block [
    -- 93: uint64_t K[8], state[8];
    -- 95: memcpy(K, h.data(), sizeof(K));
    .memcpy (.addr 3 (.lit (.i32 0))) (.addr 2 (.lit (.i32 0))) (.lit (.u64 64)),
    -- 96: for (int i = 0; i < 8; ++i)
    for96,
    -- 99: for (int r = 0; r < 10; ++r)
    for99,
    -- 126: for (int i = 0; i < 8; ++i)
    for126,
    -- 128: mp += 64;
    .set 0 (.bin .add (.var 0) (.lit (.i32 64)))
  ])

/-- whirlpool_provider.hpp 89-130. -/
def transform : Stmt := block [
    -- 91: for (uint64_t b = 0; b < num_blks; b++)
    for91
  ]


/-- whirlpool_provider.hpp 49-54. -/
def init : Stmt := block [
    -- 51: pos = 0;
    .set 0 (.lit (.i32 0)),
    -- 52: total = 0;
    .set 1 (.lit (.i32 0)),
    -- 53: memset(&h[0], 0, sizeof(uint64_t)*8);
    .memset (.addr 2 (.lit (.i32 0))) (.lit (.i32 0)) (.bin .mul (.lit (.u64 8)) (.lit (.i32 8)))
  ]


/-- whirlpool_provider.hpp 56-60. -/
def update : Stmt := block [
    -- 58: detail::absorb_bytes(data, len, 64, 64, m.data(), pos, total,
    absorb_bytes 4 (.var 0) (.var 1) (.lit (.i32 64)) (.lit (.i32 64)) (.addr 1 (.lit (.i32 0))) 2 3
  ]


/-- whirlpool_provider.hpp 62-78. -/
def final : Stmt := block [
    -- 64: total += pos * 8;
    .set 2 (.bin .add (.var 2) (.bin .mul (.var 1) (.lit (.i32 8)))),
    -- 65: uint64_t mlen = byteswap(total);
    .decl .u64 (.ret byteswap (.push (.var 2) .nil)),
    -- 66: m[pos++] = 0x80;
    .store 1 (.var 1) (.lit (.i32 0x80)),
    .set 1 (.bin .add (.var 1) (.lit (.i32 1))),
    -- 67: if (pos > 32)
    .ite (.bin .gt (.var 1) (.lit (.i32 32))) (.scope (block [
      -- 69: if (pos != 64)
      .ite (.bin .ne (.var 1) (.lit (.i32 64))) (.scope (block [
        -- 70: memset(&m[pos], 0, 64 - pos);
        .memset (.addr 1 (.var 1)) (.lit (.i32 0)) (.bin .sub (.lit (.i32 64)) (.var 1))
      ])) .skip,
      -- 71: transform(m.data(), 1);
      .call 0 (.addr 1 (.lit (.i32 0))) (.lit (.i32 1)),
      -- 72: pos = 0;
      .set 1 (.lit (.i32 0))
    ])) .skip,
    -- 74: memset(&m[pos], 0, 56 - pos);
    .memset (.addr 1 (.var 1)) (.lit (.i32 0)) (.bin .sub (.lit (.i32 56)) (.var 1)),
    -- 75: memcpy(&m[64 - 8], &mlen, 64 / 8);
    .memcpyv (.addr 1 (.bin .sub (.lit (.i32 64)) (.lit (.i32 8)))) 3 (.bin .div (.lit (.i32 64)) (.lit (.i32 8))),
    -- 76: transform(m.data(), 1);
    .call 0 (.addr 1 (.lit (.i32 0))) (.lit (.i32 1)),
    -- 77: memcpy(hash, h.data(), hash_size() / 8);
    .memcpy (.var 0) (.addr 2 (.lit (.i32 0))) (.bin .div (.ret hash_size .nil) (.lit (.i32 8)))
  ]

end Digestpp.Cpp.Src.Whirlpool
