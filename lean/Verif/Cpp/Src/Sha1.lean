import Verif.Cpp.Src.Absorb
import Verif.Model.Tables.Sha1

/-! C71. `transform`, `init`, `update` and `final` of `sha1_provider.hpp` and what they call. Array 0 is what `data` or `hash` points to, 1 is `m`, 2 is `H`, 3 is `M`, 4 is `W`. Variables are the parameters, followed by `pos` and `total`. The pointer to a function `f` is a number: 0 `Ch`, 1 `Parity`, 2 `Maj`. Written by tools/cpp2lean.py from the text of the library. -/

namespace Digestpp.Cpp.Src.Sha1
open Absorb

/-- sha1_provider.hpp 21-24: `Ch`. -/
def Ch : Expr := .cast .u32 (.bin .xor (.bin .and (.arg 0) (.arg 1)) (.bin .and (.bnot (.arg 0)) (.arg 2)))

/-- sha1_provider.hpp 26-29: `Parity`. -/
def Parity : Expr := .cast .u32 (.bin .xor (.bin .xor (.arg 0) (.arg 1)) (.arg 2))

/-- sha1_provider.hpp 31-34: `Maj`. -/
def Maj : Expr := .cast .u32 (.bin .xor (.bin .xor (.bin .and (.arg 0) (.arg 1)) (.bin .and (.arg 0) (.arg 2))) (.bin .and (.arg 1) (.arg 2)))

/-- sha1_provider.hpp 101: `for (uint32_t i = 0; i < 64 / 4; i++)`. -/
def for101 : Stmt := for' (.decl .u32 (.lit (.i32 0))) (.bin .lt (.var 3) (.bin .div (.lit (.i32 64)) (.lit (.i32 4)))) (.set 3 (.bin .add (.var 3) (.lit (.i32 1)))) (block [
    -- 102: M[i] = byteswap((reinterpret_cast<const uint32_t*>(data)[blk * 16 + i]));
    .store 3 (.var 3) (.ret byteswap (.push (.at (.recast 4 (.var 0)) (.bin .add (.bin .mul (.var 2) (.lit (.i32 16))) (.var 3))) .nil))
  ])

/-- sha1_provider.hpp 105: `for (int t = 0; t <= 15; t++)`. -/
def for105 : Stmt := for' (.decl .i32 (.lit (.i32 0))) (.bin .le (.var 3) (.lit (.i32 15))) (.set 3 (.bin .add (.var 3) (.lit (.i32 1)))) (block [
    -- 106: W[t] = M[t];
    .store 4 (.var 3) (.idx 3 (.var 3))
  ])

/-- sha1_provider.hpp 107: `for (int t = 16; t <= 79; t++)`. -/
def for107 : Stmt := for' (.decl .i32 (.lit (.i32 16))) (.bin .le (.var 3) (.lit (.i32 79))) (.set 3 (.bin .add (.var 3) (.lit (.i32 1)))) (block [
    -- 108: W[t] = rotate_left(W[t - 3] ^ W[t - 8] ^ W[t - 14] ^ W[t - 16], 1);
    .store 4 (.var 3) (.ret rotate_left (.push (.bin .xor (.bin .xor (.bin .xor (.idx 4 (.bin .sub (.var 3) (.lit (.i32 3)))) (.idx 4 (.bin .sub (.var 3) (.lit (.i32 8))))) (.idx 4 (.bin .sub (.var 3) (.lit (.i32 14))))) (.idx 4 (.bin .sub (.var 3) (.lit (.i32 16))))) (.push (.cast .u32 (.lit (.i32 1))) .nil)))
  ])

/-- sha1_provider.hpp 118: `for (int t = 0; t <= 79; t++)`. -/
def for118 : Stmt := for' (.decl .i32 (.lit (.i32 0))) (.bin .le (.var 10) (.lit (.i32 79))) (.set 10 (.bin .add (.var 10) (.lit (.i32 1)))) (block [
    -- 120: uint32_t T = rotate_left(a, 5) + f(b, c, d) + e + K + W[t];
    .decl .u32 (.bin .add (.bin .add (.bin .add (.bin .add (.ret rotate_left (.push (.var 3) (.push (.cast .u32 (.lit (.i32 5))) .nil))) (.cond (.bin .eq (.var 9) (.lit (.i32 0))) (.ret Ch (.push (.var 4) (.push (.var 5) (.push (.var 6) .nil)))) (.cond (.bin .eq (.var 9) (.lit (.i32 1))) (.ret Parity (.push (.var 4) (.push (.var 5) (.push (.var 6) .nil)))) (.ret Maj (.push (.var 4) (.push (.var 5) (.push (.var 6) .nil))))))) (.var 7)) (.var 8)) (.idx 4 (.var 10))),
    -- 121: e = d;
    .set 7 (.var 6),
    -- 122: d = c;
    .set 6 (.var 5),
    -- 123: c = rotate_left(b, 30);
    .set 5 (.ret rotate_left (.push (.var 4) (.push (.cast .u32 (.lit (.i32 30))) .nil))),
    -- 124: b = a;
    .set 4 (.var 3),
    -- 125: a = T;
    .set 3 (.var 11),
    -- 127: if (t == 19)
    .ite (.bin .eq (.var 10) (.lit (.i32 19))) (.scope (block [
      -- 129: f = sha1_functions::Parity;
      .set 9 (.lit (.i32 1)),
      -- 130: K = sha1_constants<void>::K[1];
      .set 8 (.tab (.a32 Model.sha1_K) (.lit (.i32 1)))
    ])) (.scope (block [
      -- 132: else if (t == 39)
      .ite (.bin .eq (.var 10) (.lit (.i32 39))) (.scope (block [
        -- 134: f = sha1_functions::Maj;
        .set 9 (.lit (.i32 2)),
        -- 135: K = sha1_constants<void>::K[2];
        .set 8 (.tab (.a32 Model.sha1_K) (.lit (.i32 2)))
      ])) (.scope (block [
        -- 137: else if (t == 59)
        .ite (.bin .eq (.var 10) (.lit (.i32 59))) (.scope (block [
          -- 139: f = sha1_functions::Parity;
          .set 9 (.lit (.i32 1)),
          -- 140: K = sha1_constants<void>::K[3];
          .set 8 (.tab (.a32 Model.sha1_K) (.lit (.i32 3)))
        ])) .skip
      ]))
    ]))
  ])

/-- sha1_provider.hpp 98: `for (uint64_t blk = 0; blk < num_blks; blk++)`. -/
def for98 : Stmt := for' (.decl .u64 (.lit (.i32 0))) (.bin .lt (.var 2) (.var 1)) (.set 2 (.bin .add (.var 2) (.lit (.i32 1)))) (block [
    -- 100: uint32_t M[16];
    -- 101: for (uint32_t i = 0; i < 64 / 4; i++)
    for101,
    -- 104: uint32_t W[80];
    -- 105: for (int t = 0; t <= 15; t++)
    for105,
    -- 107: for (int t = 16; t <= 79; t++)
    for107,
    -- 110: uint32_t a = H[0];
    .decl .u32 (.idx 2 (.lit (.i32 0))),
    -- 111: uint32_t b = H[1];
    .decl .u32 (.idx 2 (.lit (.i32 1))),
    -- 112: uint32_t c = H[2];
    .decl .u32 (.idx 2 (.lit (.i32 2))),
    -- 113: uint32_t d = H[3];
    .decl .u32 (.idx 2 (.lit (.i32 3))),
    -- 114: uint32_t e = H[4];
    .decl .u32 (.idx 2 (.lit (.i32 4))),
    -- 116: uint32_t K = sha1_constants<void>::K[0];
    .decl .u32 (.tab (.a32 Model.sha1_K) (.lit (.i32 0))),
    -- 117: auto f = sha1_functions::Ch;
    .decl .i32 (.lit (.i32 0)),
    -- 118: for (int t = 0; t <= 79; t++)
    for118,
    -- 144: H[0] += a;
    .store 2 (.lit (.i32 0)) (.bin .add (.idx 2 (.lit (.i32 0))) (.var 3)),
    -- 145: H[1] += b;
    .store 2 (.lit (.i32 1)) (.bin .add (.idx 2 (.lit (.i32 1))) (.var 4)),
    -- 146: H[2] += c;
    .store 2 (.lit (.i32 2)) (.bin .add (.idx 2 (.lit (.i32 2))) (.var 5)),
    -- 147: H[3] += d;
    .store 2 (.lit (.i32 3)) (.bin .add (.idx 2 (.lit (.i32 3))) (.var 6)),
    -- 148: H[4] += e;
    .store 2 (.lit (.i32 4)) (.bin .add (.idx 2 (.lit (.i32 4))) (.var 7))
  ])

/-- sha1_provider.hpp 96-150. -/
def transform : Stmt := block [
    -- 98: for (uint64_t blk = 0; blk < num_blks; blk++)
    for98
  ]


/-- sha1_provider.hpp 51-60. -/
def init : Stmt := block [
    -- 53: H[0] = 0x67452301;
    .store 2 (.lit (.i32 0)) (.lit (.i32 0x67452301)),
    -- 54: H[1] = 0xefcdab89;
    .store 2 (.lit (.i32 1)) (.lit (.u32 0xefcdab89)),
    -- 55: H[2] = 0x98badcfe;
    .store 2 (.lit (.i32 2)) (.lit (.u32 0x98badcfe)),
    -- 56: H[3] = 0x10325476;
    .store 2 (.lit (.i32 3)) (.lit (.i32 0x10325476)),
    -- 57: H[4] = 0xc3d2e1f0;
    .store 2 (.lit (.i32 4)) (.lit (.u32 0xc3d2e1f0)),
    -- 58: pos = 0;
    .set 0 (.lit (.i32 0)),
    -- 59: total = 0;
    .set 1 (.lit (.i32 0))
  ]


/-- sha1_provider.hpp 62-66. -/
def update : Stmt := block [
    -- 64: detail::absorb_bytes(data, len, 64, 64, m.data(), pos, total,
    absorb_bytes 4 (.var 0) (.var 1) (.lit (.i32 64)) (.lit (.i32 64)) (.addr 1 (.lit (.i32 0))) 2 3
  ]

/-- sha1_provider.hpp 82: `for (int i = 0; i < 5; i++)`. -/
def for82 : Stmt := for' (.decl .i32 (.lit (.i32 0))) (.bin .lt (.var 4) (.lit (.i32 5))) (.set 4 (.bin .add (.var 4) (.lit (.i32 1)))) (block [
    -- 83: H[i] = byteswap(H[i]);
    .store 2 (.var 4) (.ret byteswap (.push (.idx 2 (.var 4)) .nil))
  ])

/-- sha1_provider.hpp 68-85. -/
def final : Stmt := block [
    -- 70: total += pos * 8;
    .set 2 (.bin .add (.var 2) (.bin .mul (.var 1) (.lit (.i32 8)))),
    -- 71: m[pos++] = 0x80;
    .store 1 (.var 1) (.lit (.i32 0x80)),
    .set 1 (.bin .add (.var 1) (.lit (.i32 1))),
    -- 72: if (pos > 56) {
    .ite (.bin .gt (.var 1) (.lit (.i32 56))) (.scope (block [
      -- 73: if (pos != 64)
      .ite (.bin .ne (.var 1) (.lit (.i32 64))) (.scope (block [
        -- 74: memset(&m[pos], 0, 64 - pos);
        .memset (.addr 1 (.var 1)) (.lit (.i32 0)) (.bin .sub (.lit (.i32 64)) (.var 1))
      ])) .skip,
      -- 75: transform(&m[0], 1);
      .call 0 (.addr 1 (.lit (.i32 0))) (.lit (.i32 1)),
      -- 76: pos = 0;
      .set 1 (.lit (.i32 0))
    ])) .skip,
    -- 78: memset(&m[0] + pos, 0, 56 - pos);
    .memset (.bin .add (.addr 1 (.lit (.i32 0))) (.var 1)) (.lit (.i32 0)) (.bin .sub (.lit (.i32 56)) (.var 1)),
    -- 79: uint64_t mlen = byteswap(total);
    .decl .u64 (.ret byteswap (.push (.var 2) .nil)),
    -- 80: memcpy(&m[0] + (64 - 8), &mlen, 64 / 8);
    .memcpyv (.bin .add (.addr 1 (.lit (.i32 0))) (.bin .sub (.lit (.i32 64)) (.lit (.i32 8)))) 3 (.bin .div (.lit (.i32 64)) (.lit (.i32 8))),
    -- 81: transform(&m[0], 1);
    .call 0 (.addr 1 (.lit (.i32 0))) (.lit (.i32 1)),
    -- 82: for (int i = 0; i < 5; i++)
    for82,
    -- 84: memcpy(hash, H.data(), 160/8);
    .memcpy (.var 0) (.addr 2 (.lit (.i32 0))) (.bin .div (.lit (.i32 160)) (.lit (.i32 8)))
  ]

end Digestpp.Cpp.Src.Sha1
