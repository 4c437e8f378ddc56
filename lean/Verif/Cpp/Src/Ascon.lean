import Verif.Cpp.Src.Absorb
import Verif.Model.Tables.Ascon

/-! C71. `transform`, `init`, `update` and `squeeze` of `ascon_provider.hpp`. Array 0 is what `data` or `hash` points to, 1 is `m`, 2 is `H`; in `init`, 3, 4 and 5 are the tables `IVHASH`, `IVXOF` and `IVCXOF`, 6 is the variable `Z0`, whose address is used, 7 the characters of `Z`. Variables are the parameters, followed by `pos`, `total`, `squeezing` (`update` has the first two of these), and in `init` `Z.empty()` and `Z.length()`. Function 0 is `transform`, 2 is `update`. `type` is the template argument: 0 is `hash`, 1 is `xof`, 2 is `cxof`. Written by tools/cpp2lean.py from the text of the library. -/

namespace Digestpp.Cpp.Src.Ascon
open Absorb

/-- ascon_provider.hpp 147: `for (int i = 0; i < 12; i++)`. -/
def for147 : Stmt := for' (.decl .i32 (.lit (.i32 0))) (.bin .lt (.var 3) (.lit (.i32 12))) (.set 3 (.bin .add (.var 3) (.lit (.i32 1)))) (block [
    -- 149: H[2] ^= ascon_constants<void>::RC[i];
    .store 2 (.lit (.i32 2)) (.bin .xor (.idx 2 (.lit (.i32 2))) (.tab (.a64 Model.ascon_RC) (.var 3))),
    -- 151: H[0] ^= H[4];
    .store 2 (.lit (.i32 0)) (.bin .xor (.idx 2 (.lit (.i32 0))) (.idx 2 (.lit (.i32 4)))),
    -- 152: H[4] ^= H[3];
    .store 2 (.lit (.i32 4)) (.bin .xor (.idx 2 (.lit (.i32 4))) (.idx 2 (.lit (.i32 3)))),
    -- 153: H[2] ^= H[1];
    .store 2 (.lit (.i32 2)) (.bin .xor (.idx 2 (.lit (.i32 2))) (.idx 2 (.lit (.i32 1)))),
    -- 155: uint64_t t0 = H[0] ^ (~H[1] & H[2]);
    .decl .u64 (.bin .xor (.idx 2 (.lit (.i32 0))) (.bin .and (.bnot (.idx 2 (.lit (.i32 1)))) (.idx 2 (.lit (.i32 2))))),
    -- 156: uint64_t t1 = H[1] ^ (~H[2] & H[3]);
    .decl .u64 (.bin .xor (.idx 2 (.lit (.i32 1))) (.bin .and (.bnot (.idx 2 (.lit (.i32 2)))) (.idx 2 (.lit (.i32 3))))),
    -- 157: uint64_t t2 = H[2] ^ (~H[3] & H[4]);
    .decl .u64 (.bin .xor (.idx 2 (.lit (.i32 2))) (.bin .and (.bnot (.idx 2 (.lit (.i32 3)))) (.idx 2 (.lit (.i32 4))))),
    -- 158: uint64_t t3 = H[3] ^ (~H[4] & H[0]);
    .decl .u64 (.bin .xor (.idx 2 (.lit (.i32 3))) (.bin .and (.bnot (.idx 2 (.lit (.i32 4)))) (.idx 2 (.lit (.i32 0))))),
    -- 159: uint64_t t4 = H[4] ^ (~H[0] & H[1]);
    .decl .u64 (.bin .xor (.idx 2 (.lit (.i32 4))) (.bin .and (.bnot (.idx 2 (.lit (.i32 0)))) (.idx 2 (.lit (.i32 1))))),
    -- 161: t1 ^= t0;
    .set 5 (.bin .xor (.var 5) (.var 4)),
    -- 162: t0 ^= t4;
    .set 4 (.bin .xor (.var 4) (.var 8)),
    -- 163: t3 ^= t2;
    .set 7 (.bin .xor (.var 7) (.var 6)),
    -- 164: t2 = ~t2;
    .set 6 (.bnot (.var 6)),
    -- 166: H[0] = t0 ^ rotate_right(t0, 19) ^ rotate_right(t0, 28);
    .store 2 (.lit (.i32 0)) (.bin .xor (.bin .xor (.var 4) (.ret rotate_right (.push (.var 4) (.push (.cast .u32 (.lit (.i32 19))) .nil)))) (.ret rotate_right (.push (.var 4) (.push (.cast .u32 (.lit (.i32 28))) .nil)))),
    -- 167: H[1] = t1 ^ rotate_right(t1, 61) ^ rotate_right(t1, 39);
    .store 2 (.lit (.i32 1)) (.bin .xor (.bin .xor (.var 5) (.ret rotate_right (.push (.var 5) (.push (.cast .u32 (.lit (.i32 61))) .nil)))) (.ret rotate_right (.push (.var 5) (.push (.cast .u32 (.lit (.i32 39))) .nil)))),
    -- 168: H[2] = t2 ^ rotate_right(t2, 1) ^ rotate_right(t2, 6);
    .store 2 (.lit (.i32 2)) (.bin .xor (.bin .xor (.var 6) (.ret rotate_right (.push (.var 6) (.push (.cast .u32 (.lit (.i32 1))) .nil)))) (.ret rotate_right (.push (.var 6) (.push (.cast .u32 (.lit (.i32 6))) .nil)))),
    -- 169: H[3] = t3 ^ rotate_right(t3, 10) ^ rotate_right(t3, 17);
    .store 2 (.lit (.i32 3)) (.bin .xor (.bin .xor (.var 7) (.ret rotate_right (.push (.var 7) (.push (.cast .u32 (.lit (.i32 10))) .nil)))) (.ret rotate_right (.push (.var 7) (.push (.cast .u32 (.lit (.i32 17))) .nil)))),
    -- 170: H[4] = t4 ^ rotate_right(t4, 7) ^ rotate_right(t4, 41);
    .store 2 (.lit (.i32 4)) (.bin .xor (.bin .xor (.var 8) (.ret rotate_right (.push (.var 8) (.push (.cast .u32 (.lit (.i32 7))) .nil)))) (.ret rotate_right (.push (.var 8) (.push (.cast .u32 (.lit (.i32 41))) .nil))))
  ])

/-- ascon_provider.hpp 143: `for (size_t blk = 0; blk < num_blks; blk++)`. -/
def for143 : Stmt := for' (.decl .u64 (.lit (.i32 0))) (.bin .lt (.var 2) (.var 1)) (.set 2 (.bin .add (.var 2) (.lit (.i32 1)))) (block [
    -- 145: H[0] ^= reinterpret_cast<const uint64_t*>(data)[blk];
    .store 2 (.lit (.i32 0)) (.bin .xor (.idx 2 (.lit (.i32 0))) (.at (.recast 8 (.var 0)) (.var 2))),
    -- 147: for (int i = 0; i < 12; i++)
    for147
  ])

/-- ascon_provider.hpp 141-173. -/
def transform : Stmt := block [
    -- 143: for (size_t blk = 0; blk < num_blks; blk++)
    for143
  ]


/-- ascon_provider.hpp 36-77. -/
def init (type : Nat) : Stmt := block [
    -- 38: pos = 0;
    .set 0 (.lit (.i32 0)),
    -- 39: total = 0;
    .set 1 (.lit (.i32 0)),
    -- 40: squeezing = false;
    .set 2 (.lit (.bool false)),
    -- 41: zero_memory(H);
    .memset (.addr 2 (.lit (.i32 0))) (.lit (.i32 0)) (.lit (.u64 40)),
    -- 42: zero_memory(m);
    .memset (.addr 1 (.lit (.i32 0))) (.lit (.i32 0)) (.lit (.u64 64)),
    -- 60: if (type == ascon_type::cxof)
    .ite (.bin .eq (.lit (.i32 (type : Int))) (.lit (.i32 2))) (.scope (block [
      -- 61: memcpy(H.data(), ascon_constants<void>::IVCXOF, sizeof(ascon_constants<void>::IVCXOF));
      .memcpy (.addr 2 (.lit (.i32 0))) (.addr 5 (.lit (.i32 0))) (.lit (.u64 40))
    ])) (.scope (block [
      -- 62: else if (type == ascon_type::xof)
      .ite (.bin .eq (.lit (.i32 (type : Int))) (.lit (.i32 1))) (.scope (block [
        -- 63: memcpy(H.data(), ascon_constants<void>::IVXOF, sizeof(ascon_constants<void>::IVXOF));
        .memcpy (.addr 2 (.lit (.i32 0))) (.addr 4 (.lit (.i32 0))) (.lit (.u64 40))
      ])) (.scope (block [
        -- 65: memcpy(H.data(), ascon_constants<void>::IVHASH, sizeof(ascon_constants<void>::IVHASH));
        .memcpy (.addr 2 (.lit (.i32 0))) (.addr 3 (.lit (.i32 0))) (.lit (.u64 40))
      ]))
    ])),
    -- 67: if (type == ascon_type::cxof)
    .ite (.bin .eq (.lit (.i32 (type : Int))) (.lit (.i32 2))) (.scope (block [
      -- 69: uint64_t Z0 = Z.length() * 8;
      .store 6 (.lit (.i32 0)) (.bin .mul (.var 4) (.lit (.i32 8))),
      -- 70: update(reinterpret_cast<const unsigned char*>(&Z0), sizeof(Z0));
      .call 2 (.recast 1 (.addr 6 (.lit (.i32 0)))) (.lit (.u64 8)),
      -- 71: Z0 = 1ull;
      .store 6 (.lit (.i32 0)) (.lit (.u64 1)),
      -- 72: if (!Z.empty())
      .ite (.lnot (.var 3)) (.scope (block [
        -- 73: update(reinterpret_cast<const unsigned char*>(Z.data()), Z.length());
        .call 2 (.recast 1 (.addr 7 (.lit (.i32 0)))) (.var 4)
      ])) .skip,
      -- 74: size_t pad = Z.length() % 8;
      .decl .u64 (.bin .mod (.var 4) (.lit (.i32 8))),
      -- 75: update(reinterpret_cast<const unsigned char*>(&Z0), 8 - pad);
      .call 2 (.recast 1 (.addr 6 (.lit (.i32 0)))) (.bin .sub (.lit (.i32 8)) (.var 5))
    ])) .skip
  ]


/-- ascon_provider.hpp 85-89. -/
def update : Stmt := block [
    -- 87: detail::absorb_bytes(data, len, 8, 8, m.data(), pos, total,
    absorb_bytes 4 (.var 0) (.var 1) (.lit (.i32 8)) (.lit (.i32 8)) (.addr 1 (.lit (.i32 0))) 2 3
  ]


/-- ascon_provider.hpp 91-124. -/
def squeeze : Stmt := block [
    -- 93: size_t r = rate / 8;
    .decl .u64 (.bin .div (.lit (.u64 64)) (.lit (.i32 8))),
    -- 94: size_t processed = 0;
    .decl .u64 (.lit (.i32 0)),
    -- 95: if (!squeezing)
    .ite (.lnot (.var 4)) (.scope (block [
      -- 97: m[pos++] = '\x01';
      .store 1 (.var 2) (.lit (.i32 0x01)),
      .set 2 (.bin .add (.var 2) (.lit (.i32 1))),
      -- 98: if (r != pos)
      .ite (.bin .ne (.var 5) (.var 2)) (.scope (block [
        -- 99: memset(&m[pos], 0, r - pos);
        .memset (.addr 1 (.var 2)) (.lit (.i32 0)) (.bin .sub (.var 5) (.var 2))
      ])) .skip,
      -- 100: transform(m.data(), 1);
      .call 0 (.addr 1 (.lit (.i32 0))) (.lit (.i32 1)),
      -- 101: memset(m.data(), 0, r);
      .memset (.addr 1 (.lit (.i32 0))) (.lit (.i32 0)) (.var 5),
      -- 102: squeezing = true;
      .set 4 (.lit (.bool true))
    ])) (.scope (block [
      -- 104: else if (pos < r)
      .ite (.bin .lt (.var 2) (.var 5)) (.scope (block [
        -- 106: size_t to_copy = std::min(hs, r - pos);
        .decl .u64 (.cond (.bin .lt (.bin .sub (.var 5) (.var 2)) (.var 1)) (.bin .sub (.var 5) (.var 2)) (.var 1)),
        -- 107: memcpy(hash, reinterpret_cast<unsigned char*>(H.data()) + pos, to_copy);
        .memcpy (.var 0) (.bin .add (.recast 1 (.addr 2 (.lit (.i32 0)))) (.var 2)) (.var 7),
        -- 108: processed += to_copy;
        .set 6 (.bin .add (.var 6) (.var 7)),
        -- 109: pos += to_copy;
        .set 2 (.bin .add (.var 2) (.var 7))
      ])) (.scope (block [
        -- 111: else if (pos == r)
        .ite (.bin .eq (.var 2) (.var 5)) (.scope (block [
          -- 113: transform(m.data(), 1);
          .call 0 (.addr 1 (.lit (.i32 0))) (.lit (.i32 1))
        ])) .skip
      ]))
    ])),
    -- 116: while (processed < hs)
    .while (.bin .lt (.var 6) (.var 1)) (.scope (block [
      -- 118: if (processed)
      .ite (.var 6) (.scope (block [
        -- 119: transform(m.data(), 1);
        .call 0 (.addr 1 (.lit (.i32 0))) (.lit (.i32 1))
      ])) .skip,
      -- 120: pos = std::min(hs - processed, r);
      .set 2 (.cond (.bin .lt (.var 5) (.bin .sub (.var 1) (.var 6))) (.var 5) (.bin .sub (.var 1) (.var 6))),
      -- 121: memcpy(hash + processed, H.data(), pos);
      .memcpy (.bin .add (.var 0) (.var 6)) (.addr 2 (.lit (.i32 0))) (.var 2),
      -- 122: processed += pos;
      .set 6 (.bin .add (.var 6) (.var 2))
    ]))
  ]

end Digestpp.Cpp.Src.Ascon
