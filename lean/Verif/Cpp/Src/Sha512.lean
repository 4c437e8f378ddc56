import Verif.Cpp.Src.Absorb
import Verif.Model.Tables.Sha2

/-! C71. `transform`, `init`, `update` and `final` of `sha2_provider.hpp` with `T = uint64_t`, and what they call. Array 0 is what `data` or `hash` points to, 1 is `m`, 2 is `H`, 3 is `M`, 4 is `W`. Variables are the parameters, followed by `pos`, `total` and (in `final`) `hs`. The overload for `T` of the functions `sum0` etc. is chosen here. In `init`, the variables are `pos`, `total`, `hs` and the length of `tmp`; array 5 is `buf` and array 6 is the string `tmp`, which is given; functions 1 and 2 are `update` and `final`; what follows a `return` is moved into the other branches. Written by tools/cpp2lean.py from the text of the library. -/

namespace Digestpp.Cpp.Src.Sha512
open Absorb

/-- sha2_provider.hpp 23-26: `Ch`. -/
def Ch : Expr := .cast .u64 (.bin .xor (.bin .and (.arg 0) (.arg 1)) (.bin .and (.bnot (.arg 0)) (.arg 2)))

/-- sha2_provider.hpp 29-32: `Maj`. -/
def Maj : Expr := .cast .u64 (.bin .xor (.bin .xor (.bin .and (.arg 0) (.arg 1)) (.bin .and (.arg 0) (.arg 2))) (.bin .and (.arg 1) (.arg 2)))

/-- sha2_provider.hpp 44-47: `getK`. -/
def getK : Expr := .cast .u64 (.tab (.a64 Model.sha512_K) (.arg 0))

/-- sha2_provider.hpp 49-52: `sum0`. -/
def sum0 : Expr := .cast .u64 (.bin .xor (.bin .xor (.ret rotate_right (.push (.arg 0) (.push (.cast .u32 (.lit (.i32 28))) .nil))) (.ret rotate_right (.push (.arg 0) (.push (.cast .u32 (.lit (.i32 34))) .nil)))) (.ret rotate_right (.push (.arg 0) (.push (.cast .u32 (.lit (.i32 39))) .nil))))

/-- sha2_provider.hpp 54-57: `sum1`. -/
def sum1 : Expr := .cast .u64 (.bin .xor (.bin .xor (.ret rotate_right (.push (.arg 0) (.push (.cast .u32 (.lit (.i32 14))) .nil))) (.ret rotate_right (.push (.arg 0) (.push (.cast .u32 (.lit (.i32 18))) .nil)))) (.ret rotate_right (.push (.arg 0) (.push (.cast .u32 (.lit (.i32 41))) .nil))))

/-- sha2_provider.hpp 59-62: `sigma0`. -/
def sigma0 : Expr := .cast .u64 (.bin .xor (.bin .xor (.ret rotate_right (.push (.arg 0) (.push (.cast .u32 (.lit (.i32 1))) .nil))) (.ret rotate_right (.push (.arg 0) (.push (.cast .u32 (.lit (.i32 8))) .nil)))) (.bin .shr (.arg 0) (.lit (.i32 7))))

/-- sha2_provider.hpp 64-67: `sigma1`. -/
def sigma1 : Expr := .cast .u64 (.bin .xor (.bin .xor (.ret rotate_right (.push (.arg 0) (.push (.cast .u32 (.lit (.i32 19))) .nil))) (.ret rotate_right (.push (.arg 0) (.push (.cast .u32 (.lit (.i32 61))) .nil)))) (.bin .shr (.arg 0) (.lit (.i32 6))))

/-- sha2_provider.hpp 222: `for (int i = 0; i < 16; i++)`. -/
def for222 : Stmt := for' (.decl .i32 (.lit (.i32 0))) (.bin .lt (.var 3) (.lit (.i32 16))) (.set 3 (.bin .add (.var 3) (.lit (.i32 1)))) (block [
    -- 223: M[i] = byteswap(reinterpret_cast<const T*>(data)[blk * 16 + i]);
    .store 3 (.var 3) (.ret byteswap (.push (.at (.recast 8 (.var 0)) (.bin .add (.bin .mul (.var 2) (.lit (.i32 16))) (.var 3))) .nil))
  ])

/-- sha2_provider.hpp 227: `for (int t = 0; t <= 15; t++)`. -/
def for227 : Stmt := for' (.decl .i32 (.lit (.i32 0))) (.bin .le (.var 4) (.lit (.i32 15))) (.set 4 (.bin .add (.var 4) (.lit (.i32 1)))) (block [
    -- 228: W[t] = M[t];
    .store 4 (.var 4) (.idx 3 (.var 4))
  ])

/-- sha2_provider.hpp 229: `for (int t = 16; t < rounds; t++)`. -/
def for229 : Stmt := for' (.decl .i32 (.lit (.i32 16))) (.bin .lt (.var 4) (.var 3)) (.set 4 (.bin .add (.var 4) (.lit (.i32 1)))) (block [
    -- 230: W[t] = sha2_functions::sigma1(W[t - 2]) + W[t - 7] + sha2_functions::sigma0(W[t - 15]) + W[t - 16];
    .store 4 (.var 4) (.bin .add (.bin .add (.bin .add (.ret sigma1 (.push (.cast .u64 (.idx 4 (.bin .sub (.var 4) (.lit (.i32 2))))) .nil)) (.idx 4 (.bin .sub (.var 4) (.lit (.i32 7))))) (.ret sigma0 (.push (.cast .u64 (.idx 4 (.bin .sub (.var 4) (.lit (.i32 15))))) .nil))) (.idx 4 (.bin .sub (.var 4) (.lit (.i32 16)))))
  ])

/-- sha2_provider.hpp 241: `for (int t = 0; t < rounds; t++)`. -/
def for241 : Stmt := for' (.decl .i32 (.lit (.i32 0))) (.bin .lt (.var 12) (.var 3)) (.set 12 (.bin .add (.var 12) (.lit (.i32 1)))) (block [
    -- 243: T T1 = h + sha2_functions::sum1(e) + sha2_functions::Ch(e, f, g) + sha2_functions::getK<T>(t) + W[t];
    .decl .u64 (.bin .add (.bin .add (.bin .add (.bin .add (.var 11) (.ret sum1 (.push (.cast .u64 (.var 8)) .nil))) (.ret Ch (.push (.cast .u64 (.var 8)) (.push (.cast .u64 (.var 9)) (.push (.cast .u64 (.var 10)) .nil))))) (.ret getK (.push (.cast .i32 (.var 12)) .nil))) (.idx 4 (.var 12))),
    -- 244: T T2 = sha2_functions::sum0(a) + sha2_functions::Maj(a, b, c);
    .decl .u64 (.bin .add (.ret sum0 (.push (.cast .u64 (.var 4)) .nil)) (.ret Maj (.push (.cast .u64 (.var 4)) (.push (.cast .u64 (.var 5)) (.push (.cast .u64 (.var 6)) .nil))))),
    -- 245: h = g;
    .set 11 (.var 10),
    -- 246: g = f;
    .set 10 (.var 9),
    -- 247: f = e;
    .set 9 (.var 8),
    -- 248: e = d + T1;
    .set 8 (.bin .add (.var 7) (.var 13)),
    -- 249: d = c;
    .set 7 (.var 6),
    -- 250: c = b;
    .set 6 (.var 5),
    -- 251: b = a;
    .set 5 (.var 4),
    -- 252: a = T1 + T2;
    .set 4 (.bin .add (.var 13) (.var 14))
  ])

/-- sha2_provider.hpp 219: `for (size_t blk = 0; blk < num_blks; blk++)`. -/
def for219 : Stmt := for' (.decl .u64 (.lit (.i32 0))) (.bin .lt (.var 2) (.var 1)) (.set 2 (.bin .add (.var 2) (.lit (.i32 1)))) (block [
    -- 221: T M[16];
    -- 222: for (int i = 0; i < 16; i++)
    for222,
    -- 225: const int rounds = N == 512 ? 80 : 64;
    .decl .i32 (.cond (.bin .eq (.lit (.u64 512)) (.lit (.i32 512))) (.lit (.i32 80)) (.lit (.i32 64))),
    -- 226: T W[rounds];
    -- 227: for (int t = 0; t <= 15; t++)
    for227,
    -- 229: for (int t = 16; t < rounds; t++)
    for229,
    -- 232: T a = H[0];
    .decl .u64 (.idx 2 (.lit (.i32 0))),
    -- 233: T b = H[1];
    .decl .u64 (.idx 2 (.lit (.i32 1))),
    -- 234: T c = H[2];
    .decl .u64 (.idx 2 (.lit (.i32 2))),
    -- 235: T d = H[3];
    .decl .u64 (.idx 2 (.lit (.i32 3))),
    -- 236: T e = H[4];
    .decl .u64 (.idx 2 (.lit (.i32 4))),
    -- 237: T f = H[5];
    .decl .u64 (.idx 2 (.lit (.i32 5))),
    -- 238: T g = H[6];
    .decl .u64 (.idx 2 (.lit (.i32 6))),
    -- 239: T h = H[7];
    .decl .u64 (.idx 2 (.lit (.i32 7))),
    -- 241: for (int t = 0; t < rounds; t++)
    for241,
    -- 255: H[0] += a;
    .store 2 (.lit (.i32 0)) (.bin .add (.idx 2 (.lit (.i32 0))) (.var 4)),
    -- 256: H[1] += b;
    .store 2 (.lit (.i32 1)) (.bin .add (.idx 2 (.lit (.i32 1))) (.var 5)),
    -- 257: H[2] += c;
    .store 2 (.lit (.i32 2)) (.bin .add (.idx 2 (.lit (.i32 2))) (.var 6)),
    -- 258: H[3] += d;
    .store 2 (.lit (.i32 3)) (.bin .add (.idx 2 (.lit (.i32 3))) (.var 7)),
    -- 259: H[4] += e;
    .store 2 (.lit (.i32 4)) (.bin .add (.idx 2 (.lit (.i32 4))) (.var 8)),
    -- 260: H[5] += f;
    .store 2 (.lit (.i32 5)) (.bin .add (.idx 2 (.lit (.i32 5))) (.var 9)),
    -- 261: H[6] += g;
    .store 2 (.lit (.i32 6)) (.bin .add (.idx 2 (.lit (.i32 6))) (.var 10)),
    -- 262: H[7] += h;
    .store 2 (.lit (.i32 7)) (.bin .add (.idx 2 (.lit (.i32 7))) (.var 11))
  ])

/-- sha2_provider.hpp 217-265. -/
def transform : Stmt := block [
    -- 219: for (size_t blk = 0; blk < num_blks; blk++)
    for219
  ]

/-- sha2_provider.hpp 170: `for (int i = 0; i < 8; i++)`. -/
def for170 : Stmt := for' (.decl .i32 (.lit (.i32 0))) (.bin .lt (.var 4) (.lit (.i32 8))) (.set 4 (.bin .add (.var 4) (.lit (.i32 1)))) (block [
    -- 171: H[i] ^= 0xa5a5a5a5a5a5a5a5ull;
    .store 2 (.var 4) (.bin .xor (.idx 2 (.var 4)) (.lit (.u64 0xa5a5a5a5a5a5a5a5)))
  ])

/-- sha2_provider.hpp 177: `for (int i = 0; i < 8; i++)`. -/
def for177 : Stmt := for' (.decl .i32 (.lit (.i32 0))) (.bin .lt (.var 4) (.lit (.i32 8))) (.set 4 (.bin .add (.var 4) (.lit (.i32 1)))) (block [
    -- 178: H[i] = byteswap(H[i]);
    .store 2 (.var 4) (.ret byteswap (.push (.idx 2 (.var 4)) .nil))
  ])

/-- sha2_provider.hpp 118-181. -/
def init : Stmt := block [
    -- 120: pos = 0;
    .set 0 (.lit (.i32 0)),
    -- 121: total = 0;
    .set 1 (.lit (.i32 0)),
    -- 126: case 224:
    .ite (.bin .eq (.var 2) (.lit (.i32 224))) (.scope (block [
      -- 127: H[0] = 0x8C3D37C819544DA2ull;
      .store 2 (.lit (.i32 0)) (.lit (.u64 0x8C3D37C819544DA2)),
      -- 128: H[1] = 0x73E1996689DCD4D6ull;
      .store 2 (.lit (.i32 1)) (.lit (.u64 0x73E1996689DCD4D6)),
      -- 129: H[2] = 0x1DFAB7AE32FF9C82ull;
      .store 2 (.lit (.i32 2)) (.lit (.u64 0x1DFAB7AE32FF9C82)),
      -- 130: H[3] = 0x679DD514582F9FCFull;
      .store 2 (.lit (.i32 3)) (.lit (.u64 0x679DD514582F9FCF)),
      -- 131: H[4] = 0x0F6D2B697BD44DA8ull;
      .store 2 (.lit (.i32 4)) (.lit (.u64 0x0F6D2B697BD44DA8)),
      -- 132: H[5] = 0x77E36F7304C48942ull;
      .store 2 (.lit (.i32 5)) (.lit (.u64 0x77E36F7304C48942)),
      -- 133: H[6] = 0x3F9D85A86A1D36C8ull;
      .store 2 (.lit (.i32 6)) (.lit (.u64 0x3F9D85A86A1D36C8)),
      -- 134: H[7] = 0x1112E6AD91D692A1ull;
      .store 2 (.lit (.i32 7)) (.lit (.u64 0x1112E6AD91D692A1))
    ])) (.scope (block [
      -- 136: case 256:
      .ite (.bin .eq (.var 2) (.lit (.i32 256))) (.scope (block [
        -- 137: H[0] = 0x22312194FC2BF72Cull;
        .store 2 (.lit (.i32 0)) (.lit (.u64 0x22312194FC2BF72C)),
        -- 138: H[1] = 0x9F555FA3C84C64C2ull;
        .store 2 (.lit (.i32 1)) (.lit (.u64 0x9F555FA3C84C64C2)),
        -- 139: H[2] = 0x2393B86B6F53B151ull;
        .store 2 (.lit (.i32 2)) (.lit (.u64 0x2393B86B6F53B151)),
        -- 140: H[3] = 0x963877195940EABDull;
        .store 2 (.lit (.i32 3)) (.lit (.u64 0x963877195940EABD)),
        -- 141: H[4] = 0x96283EE2A88EFFE3ull;
        .store 2 (.lit (.i32 4)) (.lit (.u64 0x96283EE2A88EFFE3)),
        -- 142: H[5] = 0xBE5E1E2553863992ull;
        .store 2 (.lit (.i32 5)) (.lit (.u64 0xBE5E1E2553863992)),
        -- 143: H[6] = 0x2B0199FC2C85B8AAull;
        .store 2 (.lit (.i32 6)) (.lit (.u64 0x2B0199FC2C85B8AA)),
        -- 144: H[7] = 0x0EB72DDC81C52CA2ull;
        .store 2 (.lit (.i32 7)) (.lit (.u64 0x0EB72DDC81C52CA2))
      ])) (.scope (block [
        -- 146: case 384:
        .ite (.bin .eq (.var 2) (.lit (.i32 384))) (.scope (block [
          -- 147: H[0] = 0xcbbb9d5dc1059ed8ull;
          .store 2 (.lit (.i32 0)) (.lit (.u64 0xcbbb9d5dc1059ed8)),
          -- 148: H[1] = 0x629a292a367cd507ull;
          .store 2 (.lit (.i32 1)) (.lit (.u64 0x629a292a367cd507)),
          -- 149: H[2] = 0x9159015a3070dd17ull;
          .store 2 (.lit (.i32 2)) (.lit (.u64 0x9159015a3070dd17)),
          -- 150: H[3] = 0x152fecd8f70e5939ull;
          .store 2 (.lit (.i32 3)) (.lit (.u64 0x152fecd8f70e5939)),
          -- 151: H[4] = 0x67332667ffc00b31ull;
          .store 2 (.lit (.i32 4)) (.lit (.u64 0x67332667ffc00b31)),
          -- 152: H[5] = 0x8eb44a8768581511ull;
          .store 2 (.lit (.i32 5)) (.lit (.u64 0x8eb44a8768581511)),
          -- 153: H[6] = 0xdb0c2e0d64f98fa7ull;
          .store 2 (.lit (.i32 6)) (.lit (.u64 0xdb0c2e0d64f98fa7)),
          -- 154: H[7] = 0x47b5481dbefa4fa4ull;
          .store 2 (.lit (.i32 7)) (.lit (.u64 0x47b5481dbefa4fa4))
        ])) (.scope (block [
          -- 157: H[0] = 0x6a09e667f3bcc908ull;
          .store 2 (.lit (.i32 0)) (.lit (.u64 0x6a09e667f3bcc908)),
          -- 158: H[1] = 0xbb67ae8584caa73bull;
          .store 2 (.lit (.i32 1)) (.lit (.u64 0xbb67ae8584caa73b)),
          -- 159: H[2] = 0x3c6ef372fe94f82bull;
          .store 2 (.lit (.i32 2)) (.lit (.u64 0x3c6ef372fe94f82b)),
          -- 160: H[3] = 0xa54ff53a5f1d36f1ull;
          .store 2 (.lit (.i32 3)) (.lit (.u64 0xa54ff53a5f1d36f1)),
          -- 161: H[4] = 0x510e527fade682d1ull;
          .store 2 (.lit (.i32 4)) (.lit (.u64 0x510e527fade682d1)),
          -- 162: H[5] = 0x9b05688c2b3e6c1full;
          .store 2 (.lit (.i32 5)) (.lit (.u64 0x9b05688c2b3e6c1f)),
          -- 163: H[6] = 0x1f83d9abfb41bd6bull;
          .store 2 (.lit (.i32 6)) (.lit (.u64 0x1f83d9abfb41bd6b)),
          -- 164: H[7] = 0x5be0cd19137e2179ull;
          .store 2 (.lit (.i32 7)) (.lit (.u64 0x5be0cd19137e2179)),
          -- 166: if (hs == 512)
          .ite (.bin .eq (.var 2) (.lit (.i32 512))) .skip (.scope (block [
            -- 170: for (int i = 0; i < 8; i++)
            for170,
            -- 174: update(reinterpret_cast<unsigned char*>(&tmp[0]), tmp.length());
            .call 1 (.recast 1 (.addr 6 (.lit (.i32 0)))) (.var 3),
            -- 175: unsigned char buf[512 / 8];
            -- 176: final(buf);
            .call 2 (.addr 5 (.lit (.i32 0))) (.lit (.i32 0)),
            -- 177: for (int i = 0; i < 8; i++)
            for177,
            -- 179: pos = 0;
            .set 0 (.lit (.i32 0)),
            -- 180: total = 0;
            .set 1 (.lit (.i32 0))
          ]))
        ]))
      ]))
    ]))
  ]


/-- sha2_provider.hpp 183-187. -/
def update : Stmt := block [
    -- 185: detail::absorb_bytes(data, len, N / 4, N / 4, m.data(), pos, total,
    absorb_bytes 4 (.var 0) (.var 1) (.bin .div (.lit (.u64 512)) (.lit (.i32 4))) (.bin .div (.lit (.u64 512)) (.lit (.i32 4))) (.addr 1 (.lit (.i32 0))) 2 3
  ]

/-- sha2_provider.hpp 203: `for (int i = 0; i < 8; i++)`. -/
def for203 : Stmt := for' (.decl .i32 (.lit (.i32 0))) (.bin .lt (.var 5) (.lit (.i32 8))) (.set 5 (.bin .add (.var 5) (.lit (.i32 1)))) (block [
    -- 204: H[i] = byteswap(H[i]);
    .store 2 (.var 5) (.ret byteswap (.push (.idx 2 (.var 5)) .nil))
  ])

/-- sha2_provider.hpp 189-206. -/
def final : Stmt := block [
    -- 191: total += pos * 8;
    .set 2 (.bin .add (.var 2) (.bin .mul (.var 1) (.lit (.i32 8)))),
    -- 192: m[pos++] = 0x80;
    .store 1 (.var 1) (.lit (.i32 0x80)),
    .set 1 (.bin .add (.var 1) (.lit (.i32 1))),
    -- 193: if (pos > N / 4 - sizeof(T) * 2) {
    .ite (.bin .gt (.var 1) (.bin .sub (.bin .div (.lit (.u64 512)) (.lit (.i32 4))) (.bin .mul (.lit (.u64 8)) (.lit (.i32 2))))) (.scope (block [
      -- 194: if (pos != N / 4)
      .ite (.bin .ne (.var 1) (.bin .div (.lit (.u64 512)) (.lit (.i32 4)))) (.scope (block [
        -- 195: memset(&m[pos], 0, N / 4 - pos);
        .memset (.addr 1 (.var 1)) (.lit (.i32 0)) (.bin .sub (.bin .div (.lit (.u64 512)) (.lit (.i32 4))) (.var 1))
      ])) .skip,
      -- 196: transform(m.data(), 1);
      .call 0 (.addr 1 (.lit (.i32 0))) (.lit (.i32 1)),
      -- 197: pos = 0;
      .set 1 (.lit (.i32 0))
    ])) .skip,
    -- 199: memset(&m[pos], 0, N / 4 - pos);
    .memset (.addr 1 (.var 1)) (.lit (.i32 0)) (.bin .sub (.bin .div (.lit (.u64 512)) (.lit (.i32 4))) (.var 1)),
    -- 200: uint64_t mlen = byteswap(total);
    .decl .u64 (.ret byteswap (.push (.var 2) .nil)),
    -- 201: memcpy(&m[N / 4 - 8], &mlen, 64 / 8);
    .memcpyv (.addr 1 (.bin .sub (.bin .div (.lit (.u64 512)) (.lit (.i32 4))) (.lit (.i32 8)))) 4 (.bin .div (.lit (.i32 64)) (.lit (.i32 8))),
    -- 202: transform(m.data(), 1);
    .call 0 (.addr 1 (.lit (.i32 0))) (.lit (.i32 1)),
    -- 203: for (int i = 0; i < 8; i++)
    for203,
    -- 205: memcpy(hash, &H[0], hs/8);
    .memcpy (.var 0) (.addr 2 (.lit (.i32 0))) (.bin .div (.var 3) (.lit (.i32 8)))
  ]

end Digestpp.Cpp.Src.Sha512
