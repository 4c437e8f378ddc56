import Verif.Cpp.Src.Absorb
import Verif.Model.Tables.Esch

/-! C71. `sparkle`, `transform`, `init`, `update` and `squeeze` of `esch_provider.hpp`. Array 0 is what `data` or `hash` points to, 1 is `m`, 2 is `H`, 3 is `M`. Variables are the parameters, followed by `pos`, `total`, `squeezing` (`update` has the first two of these). Functions 0 and 4 are `transform` with `lastBlock` equal to `false` and `true`, `last` being its value; 1 is `sparkle`. `n` and `xof` are the template arguments `N` and `XOF`; `hs`, which is assigned in the constructors only, is given. Written by tools/cpp2lean.py from the text of the library. -/

namespace Digestpp.Cpp.Src.Esch
open Absorb

/-- esch_provider.hpp 30: `for (int j = 0, px = 0, py = 1; j < rounds; j++, px += 2, py += 2)`. -/
def for30 : Stmt := for' (block [.decl .i32 (.lit (.i32 0)), .decl .i32 (.lit (.i32 0)), .decl .i32 (.lit (.i32 1))]) (.bin .lt (.var 3) (.var 0)) (block [.set 3 (.bin .add (.var 3) (.lit (.i32 1))), .set 4 (.bin .add (.var 4) (.lit (.i32 2))), .set 5 (.bin .add (.var 5) (.lit (.i32 2)))]) (block [
    -- 32: H[px] += rotate_right(H[py], 31);
    .store 2 (.var 4) (.bin .add (.idx 2 (.var 4)) (.ret rotate_right (.push (.idx 2 (.var 5)) (.push (.cast .u32 (.lit (.i32 31))) .nil)))),
    -- 33: H[py] ^= rotate_right(H[px], 24);
    .store 2 (.var 5) (.bin .xor (.idx 2 (.var 5)) (.ret rotate_right (.push (.idx 2 (.var 4)) (.push (.cast .u32 (.lit (.i32 24))) .nil)))),
    -- 34: H[px] ^= esch_constants<void>::C[j];
    .store 2 (.var 4) (.bin .xor (.idx 2 (.var 4)) (.tab (.a32 Model.esch_C) (.var 3))),
    -- 35: H[px] += rotate_right(H[py], 17);
    .store 2 (.var 4) (.bin .add (.idx 2 (.var 4)) (.ret rotate_right (.push (.idx 2 (.var 5)) (.push (.cast .u32 (.lit (.i32 17))) .nil)))),
    -- 36: H[py] ^= rotate_right(H[px], 17);
    .store 2 (.var 5) (.bin .xor (.idx 2 (.var 5)) (.ret rotate_right (.push (.idx 2 (.var 4)) (.push (.cast .u32 (.lit (.i32 17))) .nil)))),
    -- 37: H[px] ^= esch_constants<void>::C[j];
    .store 2 (.var 4) (.bin .xor (.idx 2 (.var 4)) (.tab (.a32 Model.esch_C) (.var 3))),
    -- 38: H[px] += H[py];
    .store 2 (.var 4) (.bin .add (.idx 2 (.var 4)) (.idx 2 (.var 5))),
    -- 39: H[py] ^= rotate_right(H[px], 31);
    .store 2 (.var 5) (.bin .xor (.idx 2 (.var 5)) (.ret rotate_right (.push (.idx 2 (.var 4)) (.push (.cast .u32 (.lit (.i32 31))) .nil)))),
    -- 40: H[px] ^= esch_constants<void>::C[j];
    .store 2 (.var 4) (.bin .xor (.idx 2 (.var 4)) (.tab (.a32 Model.esch_C) (.var 3))),
    -- 41: H[px] += rotate_right(H[py], 24);
    .store 2 (.var 4) (.bin .add (.idx 2 (.var 4)) (.ret rotate_right (.push (.idx 2 (.var 5)) (.push (.cast .u32 (.lit (.i32 24))) .nil)))),
    -- 42: H[py] ^= rotate_right(H[px], 16);
    .store 2 (.var 5) (.bin .xor (.idx 2 (.var 5)) (.ret rotate_right (.push (.idx 2 (.var 4)) (.push (.cast .u32 (.lit (.i32 16))) .nil)))),
    -- 43: H[px] ^= esch_constants<void>::C[j];
    .store 2 (.var 4) (.bin .xor (.idx 2 (.var 4)) (.tab (.a32 Model.esch_C) (.var 3)))
  ])

/-- esch_provider.hpp 55: `for (int i = 0, j = rounds; i < rounds; i+=2, j+=2)`. -/
def for55 : Stmt := for' (block [.decl .i32 (.lit (.i32 0)), .decl .i32 (.var 0)]) (.bin .lt (.var 5) (.var 0)) (block [.set 5 (.bin .add (.var 5) (.lit (.i32 2))), .set 6 (.bin .add (.var 6) (.lit (.i32 2)))]) (block [
    -- 57: H[j] ^= H[i] ^ y;
    .store 2 (.var 6) (.bin .xor (.idx 2 (.var 6)) (.bin .xor (.idx 2 (.var 5)) (.var 4))),
    -- 58: H[j + 1] ^= H[i + 1] ^ x;
    .store 2 (.bin .add (.var 6) (.lit (.i32 1))) (.bin .xor (.idx 2 (.bin .add (.var 6) (.lit (.i32 1)))) (.bin .xor (.idx 2 (.bin .add (.var 5) (.lit (.i32 1)))) (.var 3)))
  ])

/-- esch_provider.hpp 62: `for (int i = 0; i < rounds - 2; i++)`. -/
def for62 : Stmt := for' (.decl .i32 (.lit (.i32 0))) (.bin .lt (.var 5) (.bin .sub (.var 0) (.lit (.i32 2)))) (.set 5 (.bin .add (.var 5) (.lit (.i32 1)))) (block [
    -- 64: H[i + rounds] = H[i];
    .store 2 (.bin .add (.var 5) (.var 0)) (.idx 2 (.var 5)),
    -- 65: H[i] = H[i + rounds + 2];
    .store 2 (.var 5) (.idx 2 (.bin .add (.bin .add (.var 5) (.var 0)) (.lit (.i32 2))))
  ])

/-- esch_provider.hpp 26: `for(int s = 0; s < ns; s++)`. -/
def for26 : Stmt := for' (.decl .i32 (.lit (.i32 0))) (.bin .lt (.var 2) (.var 1)) (.set 2 (.bin .add (.var 2) (.lit (.i32 1)))) (block [
    -- 28: H[1] ^= esch_constants<void>::C[s % 8];
    .store 2 (.lit (.i32 1)) (.bin .xor (.idx 2 (.lit (.i32 1))) (.tab (.a32 Model.esch_C) (.bin .mod (.var 2) (.lit (.i32 8))))),
    -- 29: H[3] ^= s;
    .store 2 (.lit (.i32 3)) (.bin .xor (.idx 2 (.lit (.i32 3))) (.var 2)),
    -- 30: for (int j = 0, px = 0, py = 1; j < rounds; j++, px += 2, py += 2)
    for30,
    -- 45: uint32_t x = H[0] ^ H[2] ^ H[4];
    .decl .u32 (.bin .xor (.bin .xor (.idx 2 (.lit (.i32 0))) (.idx 2 (.lit (.i32 2)))) (.idx 2 (.lit (.i32 4)))),
    -- 46: uint32_t y = H[1] ^ H[3] ^ H[5];
    .decl .u32 (.bin .xor (.bin .xor (.idx 2 (.lit (.i32 1))) (.idx 2 (.lit (.i32 3)))) (.idx 2 (.lit (.i32 5)))),
    -- 47: if (rounds > 6)
    .ite (.bin .gt (.var 0) (.lit (.i32 6))) (.scope (block [
      -- 49: x ^= H[6];
      .set 3 (.bin .xor (.var 3) (.idx 2 (.lit (.i32 6)))),
      -- 50: y ^= H[7];
      .set 4 (.bin .xor (.var 4) (.idx 2 (.lit (.i32 7))))
    ])) .skip,
    -- 52: x = rotate_right(x ^ (x << 16), 16);
    .set 3 (.ret rotate_right (.push (.bin .xor (.var 3) (.bin .shl (.var 3) (.lit (.i32 16)))) (.push (.cast .u32 (.lit (.i32 16))) .nil))),
    -- 53: y = rotate_right(y ^ (y << 16), 16);
    .set 4 (.ret rotate_right (.push (.bin .xor (.var 4) (.bin .shl (.var 4) (.lit (.i32 16)))) (.push (.cast .u32 (.lit (.i32 16))) .nil))),
    -- 55: for (int i = 0, j = rounds; i < rounds; i+=2, j+=2)
    for55,
    -- 60: x = H[rounds];
    .set 3 (.idx 2 (.var 0)),
    -- 61: y = H[rounds + 1];
    .set 4 (.idx 2 (.bin .add (.var 0) (.lit (.i32 1)))),
    -- 62: for (int i = 0; i < rounds - 2; i++)
    for62,
    -- 67: H[rounds * 2 - 2] = H[rounds - 2];
    .store 2 (.bin .sub (.bin .mul (.var 0) (.lit (.i32 2))) (.lit (.i32 2))) (.idx 2 (.bin .sub (.var 0) (.lit (.i32 2)))),
    -- 68: H[rounds * 2 - 1] = H[rounds - 1];
    .store 2 (.bin .sub (.bin .mul (.var 0) (.lit (.i32 2))) (.lit (.i32 1))) (.idx 2 (.bin .sub (.var 0) (.lit (.i32 1)))),
    -- 69: H[rounds - 2] = x;
    .store 2 (.bin .sub (.var 0) (.lit (.i32 2))) (.var 3),
    -- 70: H[rounds - 1] = y;
    .store 2 (.bin .sub (.var 0) (.lit (.i32 1))) (.var 4)
  ])

/-- esch_provider.hpp 24-72. -/
def sparkle : Stmt := block [
    -- 26: for(int s = 0; s < ns; s++)
    for26
  ]

/-- esch_provider.hpp 182: `for (int i = 0; i < 4; i++)`. -/
def for182 : Stmt := for' (.decl .i32 (.lit (.i32 0))) (.bin .lt (.var 3) (.lit (.i32 4))) (.set 3 (.bin .add (.var 3) (.lit (.i32 1)))) (block [
    -- 183: M[i] = reinterpret_cast<const uint32_t*>(data)[blk * 4 + i];
    .store 3 (.var 3) (.at (.recast 4 (.var 0)) (.bin .add (.bin .mul (.var 2) (.lit (.i32 4))) (.var 3)))
  ])

/-- esch_provider.hpp 179: `for (size_t blk = 0; blk < num_blks; blk++)`. -/
def for179 (hs : Nat) (last : Bool) : Stmt := for' (.decl .u64 (.lit (.i32 0))) (.bin .lt (.var 2) (.var 1)) (.set 2 (.bin .add (.var 2) (.lit (.i32 1)))) (block [
    -- 181: uint32_t M[4];
    -- 182: for (int i = 0; i < 4; i++)
    for182,
    -- 184: uint32_t x = M[0] ^ M[2];
    .decl .u32 (.bin .xor (.idx 3 (.lit (.i32 0))) (.idx 3 (.lit (.i32 2)))),
    -- 185: uint32_t y = M[1] ^ M[3];
    .decl .u32 (.bin .xor (.idx 3 (.lit (.i32 1))) (.idx 3 (.lit (.i32 3)))),
    -- 186: x = rotate_right(x ^ (x << 16), 16);
    .set 3 (.ret rotate_right (.push (.bin .xor (.var 3) (.bin .shl (.var 3) (.lit (.i32 16)))) (.push (.cast .u32 (.lit (.i32 16))) .nil))),
    -- 187: y = rotate_right(y ^ (y << 16), 16);
    .set 4 (.ret rotate_right (.push (.bin .xor (.var 4) (.bin .shl (.var 4) (.lit (.i32 16)))) (.push (.cast .u32 (.lit (.i32 16))) .nil))),
    -- 188: H[0] = H[0] ^ M[0] ^ y;
    .store 2 (.lit (.i32 0)) (.bin .xor (.bin .xor (.idx 2 (.lit (.i32 0))) (.idx 3 (.lit (.i32 0)))) (.var 4)),
    -- 189: H[1] = H[1] ^ M[1] ^ x;
    .store 2 (.lit (.i32 1)) (.bin .xor (.bin .xor (.idx 2 (.lit (.i32 1))) (.idx 3 (.lit (.i32 1)))) (.var 3)),
    -- 190: H[2] = H[2] ^ M[2] ^ y;
    .store 2 (.lit (.i32 2)) (.bin .xor (.bin .xor (.idx 2 (.lit (.i32 2))) (.idx 3 (.lit (.i32 2)))) (.var 4)),
    -- 191: H[3] = H[3] ^ M[3] ^ x;
    .store 2 (.lit (.i32 3)) (.bin .xor (.bin .xor (.idx 2 (.lit (.i32 3))) (.idx 3 (.lit (.i32 3)))) (.var 3)),
    -- 192: H[4] ^= y;
    .store 2 (.lit (.i32 4)) (.bin .xor (.idx 2 (.lit (.i32 4))) (.var 4)),
    -- 193: H[5] ^= x;
    .store 2 (.lit (.i32 5)) (.bin .xor (.idx 2 (.lit (.i32 5))) (.var 3)),
    -- 194: if (hs > 256)
    .ite (.bin .gt (.lit (.u64 (BitVec.ofNat 64 hs))) (.lit (.i32 256))) (.scope (block [
      -- 196: H[6] ^= y;
      .store 2 (.lit (.i32 6)) (.bin .xor (.idx 2 (.lit (.i32 6))) (.var 4)),
      -- 197: H[7] ^= x;
      .store 2 (.lit (.i32 7)) (.bin .xor (.idx 2 (.lit (.i32 7))) (.var 3))
    ])) .skip,
    -- 199: int steps = lastBlock ? 11 : 7;
    .decl .i32 (.cond (.lit (.bool last)) (.lit (.i32 11)) (.lit (.i32 7))),
    -- 200: if (hs > 256)
    .ite (.bin .gt (.lit (.u64 (BitVec.ofNat 64 hs))) (.lit (.i32 256))) (.scope (block [
      -- 201: steps++;
      .set 5 (.bin .add (.var 5) (.lit (.i32 1)))
    ])) .skip,
    -- 202: esch_functions::sparkle(H, hs > 256 ? 8 : 6, steps);
    .call 1 (.cond (.bin .gt (.lit (.u64 (BitVec.ofNat 64 hs))) (.lit (.i32 256))) (.lit (.i32 8)) (.lit (.i32 6))) (.var 5)
  ])

/-- esch_provider.hpp 177-204. -/
def transform (hs : Nat) (last : Bool) : Stmt := block [
    -- 179: for (size_t blk = 0; blk < num_blks; blk++)
    for179 hs last
  ]


/-- esch_provider.hpp 109-116. -/
def init (n : Nat) : Stmt := block [
    -- 111: pos = 0;
    .set 0 (.lit (.i32 0)),
    -- 112: total = 0;
    .set 1 (.lit (.i32 0)),
    -- 113: squeezing = false;
    .set 2 (.lit (.bool false)),
    -- 114: zero_memory(H);
    .memset (.addr 2 (.lit (.i32 0))) (.lit (.i32 0)) (.lit (.u64 (BitVec.ofNat 64 (n / 8)))),
    -- 115: zero_memory(m);
    .memset (.addr 1 (.lit (.i32 0))) (.lit (.i32 0)) (.lit (.u64 128))
  ]


/-- esch_provider.hpp 118-122. -/
def update : Stmt := block [
    -- 120: detail::absorb_bytes(data, len, 16, 16 + 1, m.data(), pos, total,
    absorb_bytes 4 (.var 0) (.var 1) (.lit (.i32 16)) (.bin .add (.lit (.i32 16)) (.lit (.i32 1))) (.addr 1 (.lit (.i32 0))) 2 3
  ]


/-- esch_provider.hpp 124-160. -/
def squeeze (hs : Nat) (xof : Bool) : Stmt := block [
    -- 126: size_t processed = 0;
    .decl .u64 (.lit (.i32 0)),
    -- 127: if (!squeezing)
    .ite (.lnot (.var 4)) (.scope (block [
      -- 129: total = 1;
      .set 3 (.lit (.i32 1)),
      -- 130: squeezing = true;
      .set 4 (.lit (.bool true)),
      -- 131: if (pos < 16)
      .ite (.bin .lt (.var 2) (.lit (.i32 16))) (.scope (block [
        -- 133: memset(&m[pos], 0, 16 - pos);
        .memset (.addr 1 (.var 2)) (.lit (.i32 0)) (.bin .sub (.lit (.i32 16)) (.var 2)),
        -- 134: m[pos] = 0x80;
        .store 1 (.var 2) (.lit (.i32 0x80)),
        -- 135: H[(hs+128)/64 - 1] ^= (XOF ? 0x5000000 : 0x1000000);
        .store 2 (.bin .sub (.bin .div (.bin .add (.lit (.u64 (BitVec.ofNat 64 hs))) (.lit (.i32 128))) (.lit (.i32 64))) (.lit (.i32 1))) (.bin .xor (.idx 2 (.bin .sub (.bin .div (.bin .add (.lit (.u64 (BitVec.ofNat 64 hs))) (.lit (.i32 128))) (.lit (.i32 64))) (.lit (.i32 1)))) (.cond (.lit (.bool xof)) (.lit (.i32 0x5000000)) (.lit (.i32 0x1000000))))
      ])) (.scope (block [
        -- 138: H[(hs+128)/64 - 1] ^= (XOF ? 0x6000000 : 0x2000000);
        .store 2 (.bin .sub (.bin .div (.bin .add (.lit (.u64 (BitVec.ofNat 64 hs))) (.lit (.i32 128))) (.lit (.i32 64))) (.lit (.i32 1))) (.bin .xor (.idx 2 (.bin .sub (.bin .div (.bin .add (.lit (.u64 (BitVec.ofNat 64 hs))) (.lit (.i32 128))) (.lit (.i32 64))) (.lit (.i32 1)))) (.cond (.lit (.bool xof)) (.lit (.i32 0x6000000)) (.lit (.i32 0x2000000))))
      ])),
      -- 140: transform(m.data(), 1, true);
      .call 4 (.addr 1 (.lit (.i32 0))) (.lit (.i32 1))
    ])) (.scope (block [
      -- 142: else if (pos < 16)
      .ite (.bin .lt (.var 2) (.lit (.i32 16))) (.scope (block [
        -- 144: size_t to_copy = std::min(hss, 16 - pos);
        .decl .u64 (.cond (.bin .lt (.bin .sub (.lit (.i32 16)) (.var 2)) (.var 1)) (.bin .sub (.lit (.i32 16)) (.var 2)) (.var 1)),
        -- 145: memcpy(hash, reinterpret_cast<unsigned char*>(H.data()) + pos, to_copy);
        .memcpy (.var 0) (.bin .add (.recast 1 (.addr 2 (.lit (.i32 0)))) (.var 2)) (.var 6),
        -- 146: processed += to_copy;
        .set 5 (.bin .add (.var 5) (.var 6)),
        -- 147: pos += to_copy;
        .set 2 (.bin .add (.var 2) (.var 6)),
        -- 148: total = 0;
        .set 3 (.lit (.i32 0))
      ])) .skip
    ])),
    -- 151: while (processed < hss)
    .while (.bin .lt (.var 5) (.var 1)) (.scope (block [
      -- 153: if (!total)
      .ite (.lnot (.var 3)) (.scope (block [
        -- 154: esch_functions::sparkle(H, hs > 256 ? 8 : 6, hs > 256 ? 8 : 7);
        .call 1 (.cond (.bin .gt (.lit (.u64 (BitVec.ofNat 64 hs))) (.lit (.i32 256))) (.lit (.i32 8)) (.lit (.i32 6))) (.cond (.bin .gt (.lit (.u64 (BitVec.ofNat 64 hs))) (.lit (.i32 256))) (.lit (.i32 8)) (.lit (.i32 7)))
      ])) .skip,
      -- 155: pos = std::min(hss - processed, static_cast<size_t>(16));
      .set 2 (.cond (.bin .lt (.cast .u64 (.lit (.i32 16))) (.bin .sub (.var 1) (.var 5))) (.cast .u64 (.lit (.i32 16))) (.bin .sub (.var 1) (.var 5))),
      -- 156: memcpy(hash + processed, H.data(), pos);
      .memcpy (.bin .add (.var 0) (.var 5)) (.addr 2 (.lit (.i32 0))) (.var 2),
      -- 157: processed += pos;
      .set 5 (.bin .add (.var 5) (.var 2)),
      -- 158: total = 0;
      .set 3 (.lit (.i32 0))
    ]))
  ]

end Digestpp.Cpp.Src.Esch
