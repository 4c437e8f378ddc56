import Verif.Cpp.Src.Absorb
import Verif.Model.Tables.Md5

/-! C71. `transform`, `init`, `update` and `final` of `md5_provider.hpp` and what they call. Array 0 is what `data` or `hash` points to, 1 is `m`, 2 is `H`. Variables are the parameters, followed by `pos` and `total`. Written by tools/cpp2lean.py from the text of the library. -/

namespace Digestpp.Cpp.Src.Md5
open Absorb

/-- md5_provider.hpp 21-25: `roundf`. -/
def roundf (dep : Nat) (v_round : Expr) (r_a : Nat) (r_b : Nat) (r_c : Nat) (r_d : Nat) (v_M : Expr) : Stmt := .scope (block [.decl .i32 v_round, .declp v_M, (block [
    -- 23: a = b + rotate_left(a + (d ^ (b & (c ^ d))) + md5_constants<void>::K[round] + M[round],
    .set r_a (.bin .add (.var r_b) (.ret rotate_left (.push (.bin .add (.bin .add (.bin .add (.var r_a) (.bin .xor (.var r_d) (.bin .and (.var r_b) (.bin .xor (.var r_c) (.var r_d))))) (.tab (.a32 Model.md5_K) (.var (dep + 0)))) (.at (.var (dep + 1)) (.var (dep + 0)))) (.push (.cast .u32 (.tab (.a8 (Model.md5_S.map (BitVec.ofNat 8))) (.var (dep + 0)))) .nil))))
  ])])

/-- md5_provider.hpp 27-31: `roundg`. -/
def roundg (dep : Nat) (v_round : Expr) (r_a : Nat) (r_b : Nat) (r_c : Nat) (r_d : Nat) (v_M : Expr) : Stmt := .scope (block [.decl .i32 v_round, .declp v_M, (block [
    -- 29: a = b + rotate_left(a + (c ^ (d & (b ^ c))) + md5_constants<void>::K[round] + M[(5 * round + 1) % 16],
    .set r_a (.bin .add (.var r_b) (.ret rotate_left (.push (.bin .add (.bin .add (.bin .add (.var r_a) (.bin .xor (.var r_c) (.bin .and (.var r_d) (.bin .xor (.var r_b) (.var r_c))))) (.tab (.a32 Model.md5_K) (.var (dep + 0)))) (.at (.var (dep + 1)) (.bin .mod (.bin .add (.bin .mul (.lit (.i32 5)) (.var (dep + 0))) (.lit (.i32 1))) (.lit (.i32 16))))) (.push (.cast .u32 (.tab (.a8 (Model.md5_S.map (BitVec.ofNat 8))) (.var (dep + 0)))) .nil))))
  ])])

/-- md5_provider.hpp 33-37: `roundh`. -/
def roundh (dep : Nat) (v_round : Expr) (r_a : Nat) (r_b : Nat) (r_c : Nat) (r_d : Nat) (v_M : Expr) : Stmt := .scope (block [.decl .i32 v_round, .declp v_M, (block [
    -- 35: a = b + rotate_left(a + (b ^ c ^ d) + md5_constants<void>::K[round] + M[(3 * round + 5) % 16],
    .set r_a (.bin .add (.var r_b) (.ret rotate_left (.push (.bin .add (.bin .add (.bin .add (.var r_a) (.bin .xor (.bin .xor (.var r_b) (.var r_c)) (.var r_d))) (.tab (.a32 Model.md5_K) (.var (dep + 0)))) (.at (.var (dep + 1)) (.bin .mod (.bin .add (.bin .mul (.lit (.i32 3)) (.var (dep + 0))) (.lit (.i32 5))) (.lit (.i32 16))))) (.push (.cast .u32 (.tab (.a8 (Model.md5_S.map (BitVec.ofNat 8))) (.var (dep + 0)))) .nil))))
  ])])

/-- md5_provider.hpp 39-43: `roundi`. -/
def roundi (dep : Nat) (v_round : Expr) (r_a : Nat) (r_b : Nat) (r_c : Nat) (r_d : Nat) (v_M : Expr) : Stmt := .scope (block [.decl .i32 v_round, .declp v_M, (block [
    -- 41: a = b + rotate_left(a + (c ^ (b | ~d)) + md5_constants<void>::K[round] + M[(7 * round) % 16],
    .set r_a (.bin .add (.var r_b) (.ret rotate_left (.push (.bin .add (.bin .add (.bin .add (.var r_a) (.bin .xor (.var r_c) (.bin .or (.var r_b) (.bnot (.var r_d))))) (.tab (.a32 Model.md5_K) (.var (dep + 0)))) (.at (.var (dep + 1)) (.bin .mod (.bin .mul (.lit (.i32 7)) (.var (dep + 0))) (.lit (.i32 16))))) (.push (.cast .u32 (.tab (.a8 (Model.md5_S.map (BitVec.ofNat 8))) (.var (dep + 0)))) .nil))))
  ])])

/-- md5_provider.hpp 106: `for (uint64_t blk = 0; blk < num_blks; blk++, M += 16)`. -/
def for106 : Stmt := for' (.decl .u64 (.lit (.i32 0))) (.bin .lt (.var 3) (.var 1)) (block [.set 3 (.bin .add (.var 3) (.lit (.i32 1))), .set 2 (.bin .add (.var 2) (.lit (.i32 16)))]) (block [
    -- 108: uint32_t a = H[0];
    .decl .u32 (.idx 2 (.lit (.i32 0))),
    -- 109: uint32_t b = H[1];
    .decl .u32 (.idx 2 (.lit (.i32 1))),
    -- 110: uint32_t c = H[2];
    .decl .u32 (.idx 2 (.lit (.i32 2))),
    -- 111: uint32_t d = H[3];
    .decl .u32 (.idx 2 (.lit (.i32 3))),
    -- 113: md5_functions::roundf(0, a, b, c, d, M);
    roundf 8 (.lit (.i32 0)) 4 5 6 7 (.var 2),
    -- 114: md5_functions::roundf(1, d, a, b, c, M);
    roundf 8 (.lit (.i32 1)) 7 4 5 6 (.var 2),
    -- 115: md5_functions::roundf(2, c, d, a, b, M);
    roundf 8 (.lit (.i32 2)) 6 7 4 5 (.var 2),
    -- 116: md5_functions::roundf(3, b, c, d, a, M);
    roundf 8 (.lit (.i32 3)) 5 6 7 4 (.var 2),
    -- 117: md5_functions::roundf(4, a, b, c, d, M);
    roundf 8 (.lit (.i32 4)) 4 5 6 7 (.var 2),
    -- 118: md5_functions::roundf(5, d, a, b, c, M);
    roundf 8 (.lit (.i32 5)) 7 4 5 6 (.var 2),
    -- 119: md5_functions::roundf(6, c, d, a, b, M);
    roundf 8 (.lit (.i32 6)) 6 7 4 5 (.var 2),
    -- 120: md5_functions::roundf(7, b, c, d, a, M);
    roundf 8 (.lit (.i32 7)) 5 6 7 4 (.var 2),
    -- 121: md5_functions::roundf(8, a, b, c, d, M);
    roundf 8 (.lit (.i32 8)) 4 5 6 7 (.var 2),
    -- 122: md5_functions::roundf(9, d, a, b, c, M);
    roundf 8 (.lit (.i32 9)) 7 4 5 6 (.var 2),
    -- 123: md5_functions::roundf(10, c, d, a, b, M);
    roundf 8 (.lit (.i32 10)) 6 7 4 5 (.var 2),
    -- 124: md5_functions::roundf(11, b, c, d, a, M);
    roundf 8 (.lit (.i32 11)) 5 6 7 4 (.var 2),
    -- 125: md5_functions::roundf(12, a, b, c, d, M);
    roundf 8 (.lit (.i32 12)) 4 5 6 7 (.var 2),
    -- 126: md5_functions::roundf(13, d, a, b, c, M);
    roundf 8 (.lit (.i32 13)) 7 4 5 6 (.var 2),
    -- 127: md5_functions::roundf(14, c, d, a, b, M);
    roundf 8 (.lit (.i32 14)) 6 7 4 5 (.var 2),
    -- 128: md5_functions::roundf(15, b, c, d, a, M);
    roundf 8 (.lit (.i32 15)) 5 6 7 4 (.var 2),
    -- 130: md5_functions::roundg(16, a, b, c, d, M);
    roundg 8 (.lit (.i32 16)) 4 5 6 7 (.var 2),
    -- 131: md5_functions::roundg(17, d, a, b, c, M);
    roundg 8 (.lit (.i32 17)) 7 4 5 6 (.var 2),
    -- 132: md5_functions::roundg(18, c, d, a, b, M);
    roundg 8 (.lit (.i32 18)) 6 7 4 5 (.var 2),
    -- 133: md5_functions::roundg(19, b, c, d, a, M);
    roundg 8 (.lit (.i32 19)) 5 6 7 4 (.var 2),
    -- 134: md5_functions::roundg(20, a, b, c, d, M);
    roundg 8 (.lit (.i32 20)) 4 5 6 7 (.var 2),
    -- 135: md5_functions::roundg(21, d, a, b, c, M);
    roundg 8 (.lit (.i32 21)) 7 4 5 6 (.var 2),
    -- 136: md5_functions::roundg(22, c, d, a, b, M);
    roundg 8 (.lit (.i32 22)) 6 7 4 5 (.var 2),
    -- 137: md5_functions::roundg(23, b, c, d, a, M);
    roundg 8 (.lit (.i32 23)) 5 6 7 4 (.var 2),
    -- 138: md5_functions::roundg(24, a, b, c, d, M);
    roundg 8 (.lit (.i32 24)) 4 5 6 7 (.var 2),
    -- 139: md5_functions::roundg(25, d, a, b, c, M);
    roundg 8 (.lit (.i32 25)) 7 4 5 6 (.var 2),
    -- 140: md5_functions::roundg(26, c, d, a, b, M);
    roundg 8 (.lit (.i32 26)) 6 7 4 5 (.var 2),
    -- 141: md5_functions::roundg(27, b, c, d, a, M);
    roundg 8 (.lit (.i32 27)) 5 6 7 4 (.var 2),
    -- 142: md5_functions::roundg(28, a, b, c, d, M);
    roundg 8 (.lit (.i32 28)) 4 5 6 7 (.var 2),
    -- 143: md5_functions::roundg(29, d, a, b, c, M);
    roundg 8 (.lit (.i32 29)) 7 4 5 6 (.var 2),
    -- 144: md5_functions::roundg(30, c, d, a, b, M);
    roundg 8 (.lit (.i32 30)) 6 7 4 5 (.var 2),
    -- 145: md5_functions::roundg(31, b, c, d, a, M);
    roundg 8 (.lit (.i32 31)) 5 6 7 4 (.var 2),
    -- 147: md5_functions::roundh(32, a, b, c, d, M);
    roundh 8 (.lit (.i32 32)) 4 5 6 7 (.var 2),
    -- 148: md5_functions::roundh(33, d, a, b, c, M);
    roundh 8 (.lit (.i32 33)) 7 4 5 6 (.var 2),
    -- 149: md5_functions::roundh(34, c, d, a, b, M);
    roundh 8 (.lit (.i32 34)) 6 7 4 5 (.var 2),
    -- 150: md5_functions::roundh(35, b, c, d, a, M);
    roundh 8 (.lit (.i32 35)) 5 6 7 4 (.var 2),
    -- 151: md5_functions::roundh(36, a, b, c, d, M);
    roundh 8 (.lit (.i32 36)) 4 5 6 7 (.var 2),
    -- 152: md5_functions::roundh(37, d, a, b, c, M);
    roundh 8 (.lit (.i32 37)) 7 4 5 6 (.var 2),
    -- 153: md5_functions::roundh(38, c, d, a, b, M);
    roundh 8 (.lit (.i32 38)) 6 7 4 5 (.var 2),
    -- 154: md5_functions::roundh(39, b, c, d, a, M);
    roundh 8 (.lit (.i32 39)) 5 6 7 4 (.var 2),
    -- 155: md5_functions::roundh(40, a, b, c, d, M);
    roundh 8 (.lit (.i32 40)) 4 5 6 7 (.var 2),
    -- 156: md5_functions::roundh(41, d, a, b, c, M);
    roundh 8 (.lit (.i32 41)) 7 4 5 6 (.var 2),
    -- 157: md5_functions::roundh(42, c, d, a, b, M);
    roundh 8 (.lit (.i32 42)) 6 7 4 5 (.var 2),
    -- 158: md5_functions::roundh(43, b, c, d, a, M);
    roundh 8 (.lit (.i32 43)) 5 6 7 4 (.var 2),
    -- 159: md5_functions::roundh(44, a, b, c, d, M);
    roundh 8 (.lit (.i32 44)) 4 5 6 7 (.var 2),
    -- 160: md5_functions::roundh(45, d, a, b, c, M);
    roundh 8 (.lit (.i32 45)) 7 4 5 6 (.var 2),
    -- 161: md5_functions::roundh(46, c, d, a, b, M);
    roundh 8 (.lit (.i32 46)) 6 7 4 5 (.var 2),
    -- 162: md5_functions::roundh(47, b, c, d, a, M);
    roundh 8 (.lit (.i32 47)) 5 6 7 4 (.var 2),
    -- 164: md5_functions::roundi(48, a, b, c, d, M);
    roundi 8 (.lit (.i32 48)) 4 5 6 7 (.var 2),
    -- 165: md5_functions::roundi(49, d, a, b, c, M);
    roundi 8 (.lit (.i32 49)) 7 4 5 6 (.var 2),
    -- 166: md5_functions::roundi(50, c, d, a, b, M);
    roundi 8 (.lit (.i32 50)) 6 7 4 5 (.var 2),
    -- 167: md5_functions::roundi(51, b, c, d, a, M);
    roundi 8 (.lit (.i32 51)) 5 6 7 4 (.var 2),
    -- 168: md5_functions::roundi(52, a, b, c, d, M);
    roundi 8 (.lit (.i32 52)) 4 5 6 7 (.var 2),
    -- 169: md5_functions::roundi(53, d, a, b, c, M);
    roundi 8 (.lit (.i32 53)) 7 4 5 6 (.var 2),
    -- 170: md5_functions::roundi(54, c, d, a, b, M);
    roundi 8 (.lit (.i32 54)) 6 7 4 5 (.var 2),
    -- 171: md5_functions::roundi(55, b, c, d, a, M);
    roundi 8 (.lit (.i32 55)) 5 6 7 4 (.var 2),
    -- 172: md5_functions::roundi(56, a, b, c, d, M);
    roundi 8 (.lit (.i32 56)) 4 5 6 7 (.var 2),
    -- 173: md5_functions::roundi(57, d, a, b, c, M);
    roundi 8 (.lit (.i32 57)) 7 4 5 6 (.var 2),
    -- 174: md5_functions::roundi(58, c, d, a, b, M);
    roundi 8 (.lit (.i32 58)) 6 7 4 5 (.var 2),
    -- 175: md5_functions::roundi(59, b, c, d, a, M);
    roundi 8 (.lit (.i32 59)) 5 6 7 4 (.var 2),
    -- 176: md5_functions::roundi(60, a, b, c, d, M);
    roundi 8 (.lit (.i32 60)) 4 5 6 7 (.var 2),
    -- 177: md5_functions::roundi(61, d, a, b, c, M);
    roundi 8 (.lit (.i32 61)) 7 4 5 6 (.var 2),
    -- 178: md5_functions::roundi(62, c, d, a, b, M);
    roundi 8 (.lit (.i32 62)) 6 7 4 5 (.var 2),
    -- 179: md5_functions::roundi(63, b, c, d, a, M);
    roundi 8 (.lit (.i32 63)) 5 6 7 4 (.var 2),
    -- 181: H[0] += a;
    .store 2 (.lit (.i32 0)) (.bin .add (.idx 2 (.lit (.i32 0))) (.var 4)),
    -- 182: H[1] += b;
    .store 2 (.lit (.i32 1)) (.bin .add (.idx 2 (.lit (.i32 1))) (.var 5)),
    -- 183: H[2] += c;
    .store 2 (.lit (.i32 2)) (.bin .add (.idx 2 (.lit (.i32 2))) (.var 6)),
    -- 184: H[3] += d;
    .store 2 (.lit (.i32 3)) (.bin .add (.idx 2 (.lit (.i32 3))) (.var 7))
  ])

/-- md5_provider.hpp 103-186. -/
def transform : Stmt := block [
    -- 105: const uint32_t* M = reinterpret_cast<const uint32_t*>(data);
    .declp (.recast 4 (.var 0)),
    -- 106: for (uint64_t blk = 0; blk < num_blks; blk++, M += 16)
    for106
  ]


/-- md5_provider.hpp 61-69. -/
def init : Stmt := block [
    -- 63: H[0] = 0x67452301;
    .store 2 (.lit (.i32 0)) (.lit (.i32 0x67452301)),
    -- 64: H[1] = 0xefcdab89;
    .store 2 (.lit (.i32 1)) (.lit (.u32 0xefcdab89)),
    -- 65: H[2] = 0x98badcfe;
    .store 2 (.lit (.i32 2)) (.lit (.u32 0x98badcfe)),
    -- 66: H[3] = 0x10325476;
    .store 2 (.lit (.i32 3)) (.lit (.i32 0x10325476)),
    -- 67: pos = 0;
    .set 0 (.lit (.i32 0)),
    -- 68: total = 0;
    .set 1 (.lit (.i32 0))
  ]


/-- md5_provider.hpp 71-75. -/
def update : Stmt := block [
    -- 73: detail::absorb_bytes(data, len, 64, 64, m.data(), pos, total,
    absorb_bytes 4 (.var 0) (.var 1) (.lit (.i32 64)) (.lit (.i32 64)) (.addr 1 (.lit (.i32 0))) 2 3
  ]


/-- md5_provider.hpp 77-92. -/
def final : Stmt := block [
    -- 79: total += pos * 8;
    .set 2 (.bin .add (.var 2) (.bin .mul (.var 1) (.lit (.i32 8)))),
    -- 80: m[pos++] = 0x80;
    .store 1 (.var 1) (.lit (.i32 0x80)),
    .set 1 (.bin .add (.var 1) (.lit (.i32 1))),
    -- 81: if (pos > 56)
    .ite (.bin .gt (.var 1) (.lit (.i32 56))) (.scope (block [
      -- 83: if (pos != 64)
      .ite (.bin .ne (.var 1) (.lit (.i32 64))) (.scope (block [
        -- 84: memset(&m[pos], 0, 64 - pos);
        .memset (.addr 1 (.var 1)) (.lit (.i32 0)) (.bin .sub (.lit (.i32 64)) (.var 1))
      ])) .skip,
      -- 85: transform(&m[0], 1);
      .call 0 (.addr 1 (.lit (.i32 0))) (.lit (.i32 1)),
      -- 86: pos = 0;
      .set 1 (.lit (.i32 0))
    ])) .skip,
    -- 88: memset(&m[0] + pos, 0, 56 - pos);
    .memset (.bin .add (.addr 1 (.lit (.i32 0))) (.var 1)) (.lit (.i32 0)) (.bin .sub (.lit (.i32 56)) (.var 1)),
    -- 89: memcpy(&m[0] + (64 - 8), &total, 64 / 8);
    .memcpyv (.bin .add (.addr 1 (.lit (.i32 0))) (.bin .sub (.lit (.i32 64)) (.lit (.i32 8)))) 2 (.bin .div (.lit (.i32 64)) (.lit (.i32 8))),
    -- 90: transform(&m[0], 1);
    .call 0 (.addr 1 (.lit (.i32 0))) (.lit (.i32 1)),
    -- 91: memcpy(hash, H.data(), 16);
    .memcpy (.var 0) (.addr 2 (.lit (.i32 0))) (.lit (.i32 16))
  ]

end Digestpp.Cpp.Src.Md5
