import Verif.Cpp.Src.Absorb

/-! C71. `transform`, `init`, `update` and `final` of `sm3_provider.hpp` and what they call. Array 0 is what `data` or `hash` points to, 1 is `m`, 2 is `H`, 3 is `M`, 4 is `W`, 5 is `W2`. Variables are the parameters, followed by `pos` and `total`. Written by tools/cpp2lean.py from the text of the library. -/

namespace Digestpp.Cpp.Src.Sm3
open Absorb

/-- sm3_provider.hpp 20-23: `xorf`. -/
def xorf : Expr := .cast .u32 (.bin .xor (.bin .xor (.arg 0) (.arg 1)) (.arg 2))

/-- sm3_provider.hpp 25-28: `ff1`. -/
def ff1 : Expr := .cast .u32 (.bin .xor (.bin .xor (.bin .and (.arg 0) (.arg 1)) (.bin .and (.arg 0) (.arg 2))) (.bin .and (.arg 1) (.arg 2)))

/-- sm3_provider.hpp 30-33: `gg1`. -/
def gg1 : Expr := .cast .u32 (.bin .xor (.bin .and (.arg 0) (.arg 1)) (.bin .and (.bnot (.arg 0)) (.arg 2)))

/-- sm3_provider.hpp 35-38: `p0`. -/
def p0 : Expr := .cast .u32 (.bin .xor (.bin .xor (.arg 0) (.ret rotate_left (.push (.arg 0) (.push (.cast .u32 (.lit (.i32 9))) .nil)))) (.ret rotate_left (.push (.arg 0) (.push (.cast .u32 (.lit (.i32 17))) .nil))))

/-- sm3_provider.hpp 40-43: `p1`. -/
def p1 : Expr := .cast .u32 (.bin .xor (.bin .xor (.arg 0) (.ret rotate_left (.push (.arg 0) (.push (.cast .u32 (.lit (.i32 15))) .nil)))) (.ret rotate_left (.push (.arg 0) (.push (.cast .u32 (.lit (.i32 23))) .nil))))

/-- sm3_provider.hpp 114: `for (uint32_t i = 0; i < 64 / 4; i++)`. -/
def for114 : Stmt := for' (.decl .u32 (.lit (.i32 0))) (.bin .lt (.var 3) (.bin .div (.lit (.i32 64)) (.lit (.i32 4)))) (.set 3 (.bin .add (.var 3) (.lit (.i32 1)))) (block [
    -- 115: M[i] = byteswap(reinterpret_cast<const uint32_t*>(data)[blk * 16 + i]);
    .store 3 (.var 3) (.ret byteswap (.push (.at (.recast 4 (.var 0)) (.bin .add (.bin .mul (.var 2) (.lit (.i32 16))) (.var 3))) .nil))
  ])

/-- sm3_provider.hpp 119: `for (int t = 0; t <= 15; t++)`. -/
def for119 : Stmt := for' (.decl .i32 (.lit (.i32 0))) (.bin .le (.var 3) (.lit (.i32 15))) (.set 3 (.bin .add (.var 3) (.lit (.i32 1)))) (block [
    -- 120: W[t] = M[t];
    .store 4 (.var 3) (.idx 3 (.var 3))
  ])

/-- sm3_provider.hpp 121: `for (int t = 16; t <= 67; t++)`. -/
def for121 : Stmt := for' (.decl .i32 (.lit (.i32 16))) (.bin .le (.var 3) (.lit (.i32 67))) (.set 3 (.bin .add (.var 3) (.lit (.i32 1)))) (block [
    -- 122: W[t] = sm3_functions::p1(W[t - 16] ^ W[t - 9] ^ rotate_left(W[t - 3], 15)) ^ rotate_left(W[t - 13], 7) ^ W[t - 6];
    .store 4 (.var 3) (.bin .xor (.bin .xor (.ret p1 (.push (.cast .u32 (.bin .xor (.bin .xor (.idx 4 (.bin .sub (.var 3) (.lit (.i32 16)))) (.idx 4 (.bin .sub (.var 3) (.lit (.i32 9))))) (.ret rotate_left (.push (.idx 4 (.bin .sub (.var 3) (.lit (.i32 3)))) (.push (.cast .u32 (.lit (.i32 15))) .nil))))) .nil)) (.ret rotate_left (.push (.idx 4 (.bin .sub (.var 3) (.lit (.i32 13)))) (.push (.cast .u32 (.lit (.i32 7))) .nil)))) (.idx 4 (.bin .sub (.var 3) (.lit (.i32 6)))))
  ])

/-- sm3_provider.hpp 123: `for (int t = 0; t <= 63; t++)`. -/
def for123 : Stmt := for' (.decl .i32 (.lit (.i32 0))) (.bin .le (.var 3) (.lit (.i32 63))) (.set 3 (.bin .add (.var 3) (.lit (.i32 1)))) (block [
    -- 124: W2[t] = W[t] ^ W[t + 4];
    .store 5 (.var 3) (.bin .xor (.idx 4 (.var 3)) (.idx 4 (.bin .add (.var 3) (.lit (.i32 4)))))
  ])

/-- sm3_provider.hpp 135: `for (int t = 0; t <= 15; t++)`. -/
def for135 : Stmt := for' (.decl .i32 (.lit (.i32 0))) (.bin .le (.var 11) (.lit (.i32 15))) (.set 11 (.bin .add (.var 11) (.lit (.i32 1)))) (block [
    -- 137: uint32_t ss1 = rotate_left((rotate_left(a, 12) + e + rotate_left(0x79cc4519U, t)), 7);
    .decl .u32 (.ret rotate_left (.push (.bin .add (.bin .add (.ret rotate_left (.push (.var 3) (.push (.cast .u32 (.lit (.i32 12))) .nil))) (.var 7)) (.ret rotate_left (.push (.lit (.u32 0x79cc4519)) (.push (.cast .u32 (.var 11)) .nil)))) (.push (.cast .u32 (.lit (.i32 7))) .nil))),
    -- 138: uint32_t ss2 = ss1 ^ rotate_left(a, 12);
    .decl .u32 (.bin .xor (.var 12) (.ret rotate_left (.push (.var 3) (.push (.cast .u32 (.lit (.i32 12))) .nil)))),
    -- 139: uint32_t tt1 = sm3_functions::xorf(a, b, c) + d + ss2 + W2[t];
    .decl .u32 (.bin .add (.bin .add (.bin .add (.ret xorf (.push (.cast .u32 (.var 3)) (.push (.cast .u32 (.var 4)) (.push (.cast .u32 (.var 5)) .nil)))) (.var 6)) (.var 13)) (.idx 5 (.var 11))),
    -- 140: uint32_t tt2 = sm3_functions::xorf(e, f, g) + h + ss1 + W[t];
    .decl .u32 (.bin .add (.bin .add (.bin .add (.ret xorf (.push (.cast .u32 (.var 7)) (.push (.cast .u32 (.var 8)) (.push (.cast .u32 (.var 9)) .nil)))) (.var 10)) (.var 12)) (.idx 4 (.var 11))),
    -- 141: d = c;
    .set 6 (.var 5),
    -- 142: c = rotate_left(b, 9);
    .set 5 (.ret rotate_left (.push (.var 4) (.push (.cast .u32 (.lit (.i32 9))) .nil))),
    -- 143: b = a;
    .set 4 (.var 3),
    -- 144: a = tt1;
    .set 3 (.var 14),
    -- 145: h = g;
    .set 10 (.var 9),
    -- 146: g = rotate_left(f, 19);
    .set 9 (.ret rotate_left (.push (.var 8) (.push (.cast .u32 (.lit (.i32 19))) .nil))),
    -- 147: f = e;
    .set 8 (.var 7),
    -- 148: e = sm3_functions::p0(tt2);
    .set 7 (.ret p0 (.push (.cast .u32 (.var 15)) .nil))
  ])

/-- sm3_provider.hpp 151: `for (int t = 16; t <= 63; t++)`. -/
def for151 : Stmt := for' (.decl .i32 (.lit (.i32 16))) (.bin .le (.var 11) (.lit (.i32 63))) (.set 11 (.bin .add (.var 11) (.lit (.i32 1)))) (block [
    -- 153: uint32_t ss1 = rotate_left((rotate_left(a, 12) + e + rotate_left(0x7a879d8aU, t)), 7);
    .decl .u32 (.ret rotate_left (.push (.bin .add (.bin .add (.ret rotate_left (.push (.var 3) (.push (.cast .u32 (.lit (.i32 12))) .nil))) (.var 7)) (.ret rotate_left (.push (.lit (.u32 0x7a879d8a)) (.push (.cast .u32 (.var 11)) .nil)))) (.push (.cast .u32 (.lit (.i32 7))) .nil))),
    -- 154: uint32_t ss2 = ss1 ^ rotate_left(a, 12);
    .decl .u32 (.bin .xor (.var 12) (.ret rotate_left (.push (.var 3) (.push (.cast .u32 (.lit (.i32 12))) .nil)))),
    -- 155: uint32_t tt1 = sm3_functions::ff1(a, b, c) + d + ss2 + W2[t];
    .decl .u32 (.bin .add (.bin .add (.bin .add (.ret ff1 (.push (.cast .u32 (.var 3)) (.push (.cast .u32 (.var 4)) (.push (.cast .u32 (.var 5)) .nil)))) (.var 6)) (.var 13)) (.idx 5 (.var 11))),
    -- 156: uint32_t tt2 = sm3_functions::gg1(e, f, g) + h + ss1 + W[t];
    .decl .u32 (.bin .add (.bin .add (.bin .add (.ret gg1 (.push (.cast .u32 (.var 7)) (.push (.cast .u32 (.var 8)) (.push (.cast .u32 (.var 9)) .nil)))) (.var 10)) (.var 12)) (.idx 4 (.var 11))),
    -- 157: d = c;
    .set 6 (.var 5),
    -- 158: c = rotate_left(b, 9);
    .set 5 (.ret rotate_left (.push (.var 4) (.push (.cast .u32 (.lit (.i32 9))) .nil))),
    -- 159: b = a;
    .set 4 (.var 3),
    -- 160: a = tt1;
    .set 3 (.var 14),
    -- 161: h = g;
    .set 10 (.var 9),
    -- 162: g = rotate_left(f, 19);
    .set 9 (.ret rotate_left (.push (.var 8) (.push (.cast .u32 (.lit (.i32 19))) .nil))),
    -- 163: f = e;
    .set 8 (.var 7),
    -- 164: e = sm3_functions::p0(tt2);
    .set 7 (.ret p0 (.push (.cast .u32 (.var 15)) .nil))
  ])

/-- sm3_provider.hpp 111: `for (uint64_t blk = 0; blk < num_blks; blk++)`. -/
def for111 : Stmt := for' (.decl .u64 (.lit (.i32 0))) (.bin .lt (.var 2) (.var 1)) (.set 2 (.bin .add (.var 2) (.lit (.i32 1)))) (block [
    -- 113: uint32_t M[16];
    -- 114: for (uint32_t i = 0; i < 64 / 4; i++)
    for114,
    -- 117: uint32_t W[68];
    -- 118: uint32_t W2[64];
    -- 119: for (int t = 0; t <= 15; t++)
    for119,
    -- 121: for (int t = 16; t <= 67; t++)
    for121,
    -- 123: for (int t = 0; t <= 63; t++)
    for123,
    -- 126: uint32_t a = H[0];
    .decl .u32 (.idx 2 (.lit (.i32 0))),
    -- 127: uint32_t b = H[1];
    .decl .u32 (.idx 2 (.lit (.i32 1))),
    -- 128: uint32_t c = H[2];
    .decl .u32 (.idx 2 (.lit (.i32 2))),
    -- 129: uint32_t d = H[3];
    .decl .u32 (.idx 2 (.lit (.i32 3))),
    -- 130: uint32_t e = H[4];
    .decl .u32 (.idx 2 (.lit (.i32 4))),
    -- 131: uint32_t f = H[5];
    .decl .u32 (.idx 2 (.lit (.i32 5))),
    -- 132: uint32_t g = H[6];
    .decl .u32 (.idx 2 (.lit (.i32 6))),
    -- 133: uint32_t h = H[7];
    .decl .u32 (.idx 2 (.lit (.i32 7))),
    -- 135: for (int t = 0; t <= 15; t++)
    for135,
    -- 151: for (int t = 16; t <= 63; t++)
    for151,
    -- 167: H[0] ^= a;
    .store 2 (.lit (.i32 0)) (.bin .xor (.idx 2 (.lit (.i32 0))) (.var 3)),
    -- 168: H[1] ^= b;
    .store 2 (.lit (.i32 1)) (.bin .xor (.idx 2 (.lit (.i32 1))) (.var 4)),
    -- 169: H[2] ^= c;
    .store 2 (.lit (.i32 2)) (.bin .xor (.idx 2 (.lit (.i32 2))) (.var 5)),
    -- 170: H[3] ^= d;
    .store 2 (.lit (.i32 3)) (.bin .xor (.idx 2 (.lit (.i32 3))) (.var 6)),
    -- 171: H[4] ^= e;
    .store 2 (.lit (.i32 4)) (.bin .xor (.idx 2 (.lit (.i32 4))) (.var 7)),
    -- 172: H[5] ^= f;
    .store 2 (.lit (.i32 5)) (.bin .xor (.idx 2 (.lit (.i32 5))) (.var 8)),
    -- 173: H[6] ^= g;
    .store 2 (.lit (.i32 6)) (.bin .xor (.idx 2 (.lit (.i32 6))) (.var 9)),
    -- 174: H[7] ^= h;
    .store 2 (.lit (.i32 7)) (.bin .xor (.idx 2 (.lit (.i32 7))) (.var 10))
  ])

/-- sm3_provider.hpp 109-176. -/
def transform : Stmt := block [
    -- 111: for (uint64_t blk = 0; blk < num_blks; blk++)
    for111
  ]


/-- sm3_provider.hpp 60-72. -/
def init : Stmt := block [
    -- 62: H[0] = 0x7380166f;
    .store 2 (.lit (.i32 0)) (.lit (.i32 0x7380166f)),
    -- 63: H[1] = 0x4914b2b9;
    .store 2 (.lit (.i32 1)) (.lit (.i32 0x4914b2b9)),
    -- 64: H[2] = 0x172442d7;
    .store 2 (.lit (.i32 2)) (.lit (.i32 0x172442d7)),
    -- 65: H[3] = 0xda8a0600;
    .store 2 (.lit (.i32 3)) (.lit (.u32 0xda8a0600)),
    -- 66: H[4] = 0xa96f30bc;
    .store 2 (.lit (.i32 4)) (.lit (.u32 0xa96f30bc)),
    -- 67: H[5] = 0x163138aa;
    .store 2 (.lit (.i32 5)) (.lit (.i32 0x163138aa)),
    -- 68: H[6] = 0xe38dee4d;
    .store 2 (.lit (.i32 6)) (.lit (.u32 0xe38dee4d)),
    -- 69: H[7] = 0xb0fb0e4e;
    .store 2 (.lit (.i32 7)) (.lit (.u32 0xb0fb0e4e)),
    -- 70: pos = 0;
    .set 0 (.lit (.i32 0)),
    -- 71: total = 0;
    .set 1 (.lit (.i32 0))
  ]


/-- sm3_provider.hpp 74-78. -/
def update : Stmt := block [
    -- 76: detail::absorb_bytes(data, len, 64, 64, m.data(), pos, total,
    absorb_bytes 4 (.var 0) (.var 1) (.lit (.i32 64)) (.lit (.i32 64)) (.addr 1 (.lit (.i32 0))) 2 3
  ]

/-- sm3_provider.hpp 95: `for (int i = 0; i < 8; i++)`. -/
def for95 : Stmt := for' (.decl .i32 (.lit (.i32 0))) (.bin .lt (.var 4) (.lit (.i32 8))) (.set 4 (.bin .add (.var 4) (.lit (.i32 1)))) (block [
    -- 96: H[i] = byteswap(H[i]);
    .store 2 (.var 4) (.ret byteswap (.push (.idx 2 (.var 4)) .nil))
  ])

/-- sm3_provider.hpp 80-98. -/
def final : Stmt := block [
    -- 82: total += pos * 8;
    .set 2 (.bin .add (.var 2) (.bin .mul (.var 1) (.lit (.i32 8)))),
    -- 83: m[pos++] = 0x80;
    .store 1 (.var 1) (.lit (.i32 0x80)),
    .set 1 (.bin .add (.var 1) (.lit (.i32 1))),
    -- 84: if (pos > 56)
    .ite (.bin .gt (.var 1) (.lit (.i32 56))) (.scope (block [
      -- 86: if (pos != 64)
      .ite (.bin .ne (.var 1) (.lit (.i32 64))) (.scope (block [
        -- 87: memset(&m[pos], 0, 64 - pos);
        .memset (.addr 1 (.var 1)) (.lit (.i32 0)) (.bin .sub (.lit (.i32 64)) (.var 1))
      ])) .skip,
      -- 88: transform(m.data(), 1);
      .call 0 (.addr 1 (.lit (.i32 0))) (.lit (.i32 1)),
      -- 89: pos = 0;
      .set 1 (.lit (.i32 0))
    ])) .skip,
    -- 91: memset(&m[pos], 0, 56 - pos);
    .memset (.addr 1 (.var 1)) (.lit (.i32 0)) (.bin .sub (.lit (.i32 56)) (.var 1)),
    -- 92: uint64_t mlen = byteswap(total);
    .decl .u64 (.ret byteswap (.push (.var 2) .nil)),
    -- 93: memcpy(&m[64 - 8], &mlen, 64 / 8);
    .memcpyv (.addr 1 (.bin .sub (.lit (.i32 64)) (.lit (.i32 8)))) 3 (.bin .div (.lit (.i32 64)) (.lit (.i32 8))),
    -- 94: transform(m.data(), 1);
    .call 0 (.addr 1 (.lit (.i32 0))) (.lit (.i32 1)),
    -- 95: for (int i = 0; i < 8; i++)
    for95,
    -- 97: memcpy(hash, H.data(), 32);
    .memcpy (.var 0) (.addr 2 (.lit (.i32 0))) (.lit (.i32 32))
  ]

end Digestpp.Cpp.Src.Sm3
