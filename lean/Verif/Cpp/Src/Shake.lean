import Verif.Cpp.Src.Absorb

/-! C71. `left_encode`, `init`, `update` and `squeeze` of `shake_provider.hpp`. Array 0 is what `data` or `hash` points to, 1 is `m`, 2 is `A`; in `init`, 5 is `buf`, 6 the characters of `N`, 7 those of `S`. Variables are the parameters, followed by `pos`, `total`, `squeezing`, `suffix`, `N.empty()`, `S.empty()` (`update` has the first two of these), and in `init` `N.length()` and `S.length()`. Function 0 is `sha3_functions::transform` with four parameters, 1 the one with one parameter, 2 is `update`. `left_encode` is translated where it is called; `r_result` is the variable its result is assigned to. Written by tools/cpp2lean.py from the text of the library. -/

namespace Digestpp.Cpp.Src.Shake
open Absorb

/-- shake_provider.hpp 21-34: `left_encode`. -/
def left_encode (dep : Nat) (v_num : Expr) (v_buf : Expr) (r_result : Nat) : Stmt := .scope (block [.decl .u64 v_num, .declp v_buf, (block [
    -- 24: unsigned char n = 1;
    .decl .u8 (.lit (.i32 1)),
    -- 25: size_t tmp = num;
    .decl .u64 (.var (dep + 0)),
    -- 26: while (tmp >>= 8)
    .set (dep + 3) (.bin .shr (.var (dep + 3)) (.lit (.i32 8))),
    .while (.var (dep + 3)) (.seq (.scope (block [
      -- 27: ++n;
      .set (dep + 2) (.bin .add (.var (dep + 2)) (.lit (.i32 1)))
    ])) (.set (dep + 3) (.bin .shr (.var (dep + 3)) (.lit (.i32 8))))),
    -- 28: buf[0] = n;
    .storep (.var (dep + 1)) (.lit (.i32 0)) (.var (dep + 2)),
    -- 29: size_t result = n + 1;
    .decl .u64 (.bin .add (.var (dep + 2)) (.lit (.i32 1))),
    -- 30: size_t i = 0;
    .decl .u64 (.lit (.i32 0)),
    -- 31: while (n)
    .while (.var (dep + 2)) (.scope (block [
      -- 32: buf[n--] = static_cast<unsigned char>(num >> (8*i++));
      .storep (.var (dep + 1)) (.var (dep + 2)) (.cast .u8 (.bin .shr (.var (dep + 0)) (.bin .mul (.lit (.i32 8)) (.var (dep + 5))))),
      .set (dep + 2) (.bin .sub (.var (dep + 2)) (.lit (.i32 1))),
      .set (dep + 5) (.bin .add (.var (dep + 5)) (.lit (.i32 1)))
    ])),
    -- 33: return result;
    .set r_result (.var (dep + 4))
  ])])


/-- shake_provider.hpp 80-111. -/
def init (rate : Nat) : Stmt := block [
    -- 82: zero_memory(A);
    .memset (.addr 2 (.lit (.i32 0))) (.lit (.i32 0)) (.lit (.u64 200)),
    -- 83: pos = 0;
    .set 0 (.lit (.i32 0)),
    -- 84: total = 0;
    .set 1 (.lit (.i32 0)),
    -- 85: squeezing = false;
    .set 2 (.lit (.bool false)),
    -- 86: suffix = 0;
    .set 3 (.lit (.i32 0)),
    -- 88: if (!N.empty() || !S.empty())
    .ite (.lor (.lnot (.var 4)) (.lnot (.var 5))) (.scope (block [
      -- 90: unsigned char buf[1024];
      -- 91: size_t r = rate / 8;
      .decl .u64 (.bin .div (.lit (.u64 (BitVec.ofNat 64 rate))) (.lit (.i32 8))),
      -- 92: size_t len = shake_functions::left_encode(r, buf);
      .declare .u64,
      left_encode 10 (.var 8) (.addr 5 (.lit (.i32 0))) 9,
      -- 93: size_t total = len;
      .decl .u64 (.var 9),
      -- 94: update(buf, len);
      .call 2 (.addr 5 (.lit (.i32 0))) (.var 9),
      -- 95: len = shake_functions::left_encode(N.length() * 8, buf);
      left_encode 11 (.bin .mul (.var 6) (.lit (.i32 8))) (.addr 5 (.lit (.i32 0))) 9,
      -- 96: total += len;
      .set 10 (.bin .add (.var 10) (.var 9)),
      -- 97: update(buf, len);
      .call 2 (.addr 5 (.lit (.i32 0))) (.var 9),
      -- 98: if (!N.empty())
      .ite (.lnot (.var 4)) (.scope (block [
        -- 99: update(reinterpret_cast<const unsigned char*>(N.data()), N.length());
        .call 2 (.recast 1 (.addr 6 (.lit (.i32 0)))) (.var 6)
      ])) .skip,
      -- 100: len = shake_functions::left_encode(S.length() * 8, buf);
      left_encode 11 (.bin .mul (.var 7) (.lit (.i32 8))) (.addr 5 (.lit (.i32 0))) 9,
      -- 101: update(buf, len);
      .call 2 (.addr 5 (.lit (.i32 0))) (.var 9),
      -- 102: total += len;
      .set 10 (.bin .add (.var 10) (.var 9)),
      -- 103: if (!S.empty())
      .ite (.lnot (.var 5)) (.scope (block [
        -- 104: update(reinterpret_cast<const unsigned char*>(S.data()), S.length());
        .call 2 (.recast 1 (.addr 7 (.lit (.i32 0)))) (.var 7)
      ])) .skip,
      -- 105: total += S.length() + N.length();
      .set 10 (.bin .add (.var 10) (.bin .add (.var 7) (.var 6))),
      -- 107: len = r - (total % r);
      .set 9 (.bin .sub (.var 8) (.bin .mod (.var 10) (.var 8))),
      -- 108: memset(buf, 0, len);
      .memset (.addr 5 (.lit (.i32 0))) (.lit (.i32 0)) (.var 9),
      -- 109: update(buf, len);
      .call 2 (.addr 5 (.lit (.i32 0))) (.var 9)
    ])) .skip
  ]


/-- shake_provider.hpp 113-117. -/
def update (rate : Nat) : Stmt := block [
    -- 115: detail::absorb_bytes(data, len, rate / 8, rate / 8, m.data(), pos, total,
    absorb_bytes 4 (.var 0) (.var 1) (.bin .div (.lit (.u64 (BitVec.ofNat 64 rate))) (.lit (.i32 8))) (.bin .div (.lit (.u64 (BitVec.ofNat 64 rate))) (.lit (.i32 8))) (.addr 1 (.lit (.i32 0))) 2 3
  ]


/-- shake_provider.hpp 124-156. -/
def squeeze (rate : Nat) : Stmt := block [
    -- 126: size_t r = rate / 8;
    .decl .u64 (.bin .div (.lit (.u64 (BitVec.ofNat 64 rate))) (.lit (.i32 8))),
    -- 127: size_t processed = 0;
    .decl .u64 (.lit (.i32 0)),
    -- 128: if (!squeezing)
    .ite (.lnot (.var 4)) (.scope (block [
      -- 130: m[pos++] = suffix ? suffix : N.empty() && S.empty() ? 0x1F : 0x04;
      .store 1 (.var 2) (.cond (.var 5) (.var 5) (.cond (.land (.var 6) (.var 7)) (.lit (.i32 0x1F)) (.lit (.i32 0x04)))),
      .set 2 (.bin .add (.var 2) (.lit (.i32 1))),
      -- 131: if (r != pos)
      .ite (.bin .ne (.var 8) (.var 2)) (.scope (block [
        -- 132: memset(&m[pos], 0, r - pos);
        .memset (.addr 1 (.var 2)) (.lit (.i32 0)) (.bin .sub (.var 8) (.var 2))
      ])) .skip,
      -- 133: m[r - 1] |= 0x80;
      .store 1 (.bin .sub (.var 8) (.lit (.i32 1))) (.bin .or (.idx 1 (.bin .sub (.var 8) (.lit (.i32 1)))) (.lit (.i32 0x80))),
      -- 134: sha3_functions::transform<R>(m.data(), 1, A.data(), rate);
      .call 0 (.addr 1 (.lit (.i32 0))) (.lit (.i32 1)),
      -- 135: squeezing = true;
      .set 4 (.lit (.bool true))
    ])) (.scope (block [
      -- 137: else if (pos < r)
      .ite (.bin .lt (.var 2) (.var 8)) (.scope (block [
        -- 139: size_t to_copy = std::min(hs, r - pos);
        .decl .u64 (.cond (.bin .lt (.bin .sub (.var 8) (.var 2)) (.var 1)) (.bin .sub (.var 8) (.var 2)) (.var 1)),
        -- 140: memcpy(hash, reinterpret_cast<unsigned char*>(A.data()) + pos, to_copy);
        .memcpy (.var 0) (.bin .add (.recast 1 (.addr 2 (.lit (.i32 0)))) (.var 2)) (.var 10),
        -- 141: processed += to_copy;
        .set 9 (.bin .add (.var 9) (.var 10)),
        -- 142: pos += to_copy;
        .set 2 (.bin .add (.var 2) (.var 10))
      ])) (.scope (block [
        -- 144: else if (pos == r)
        .ite (.bin .eq (.var 2) (.var 8)) (.scope (block [
          -- 146: sha3_functions::transform<R>(A.data());
          .call 1 (.addr 2 (.lit (.i32 0))) (.lit (.i32 0))
        ])) .skip
      ]))
    ])),
    -- 148: while (processed < hs)
    .while (.bin .lt (.var 9) (.var 1)) (.scope (block [
      -- 150: if (processed)
      .ite (.var 9) (.scope (block [
        -- 151: sha3_functions::transform<R>(A.data());
        .call 1 (.addr 2 (.lit (.i32 0))) (.lit (.i32 0))
      ])) .skip,
      -- 152: pos = std::min(hs - processed, r);
      .set 2 (.cond (.bin .lt (.var 8) (.bin .sub (.var 1) (.var 9))) (.var 8) (.bin .sub (.var 1) (.var 9))),
      -- 153: memcpy(hash + processed, A.data(), pos);
      .memcpy (.bin .add (.var 0) (.var 9)) (.addr 2 (.lit (.i32 0))) (.var 2),
      -- 154: processed += pos;
      .set 9 (.bin .add (.var 9) (.var 2))
    ]))
  ]

end Digestpp.Cpp.Src.Shake
