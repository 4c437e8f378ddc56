import Verif.Cpp.Src.Functions

/-! C71. `absorb_bytes` of `detail/absorb_data.hpp`, with `T = uint64_t`. The function `transform` it is given is number 0. Written by tools/cpp2lean.py from the text of the library. -/

namespace Digestpp.Cpp.Src.Absorb

/-- absorb_data.hpp 16-39: `absorb_bytes`. -/
def absorb_bytes (dep : Nat) (v_data : Expr) (v_len : Expr) (v_bs : Expr) (v_bschk : Expr) (v_m : Expr) (r_pos : Nat) (r_total : Nat) : Stmt := .scope (block [.declp v_data, .decl .u64 v_len, .decl .u64 v_bs, .decl .u64 v_bschk, .declp v_m, (block [
    -- 19: if (pos && pos + len >= bschk)
    .ite (.land (.var r_pos) (.bin .ge (.bin .add (.var r_pos) (.var (dep + 1))) (.var (dep + 3)))) (.scope (block [
      -- 21: memcpy(m + pos, data, bs - pos);
      .memcpy (.bin .add (.var (dep + 4)) (.var r_pos)) (.var (dep + 0)) (.bin .sub (.var (dep + 2)) (.var r_pos)),
      -- 22: transform(m, 1);
      .call 0 (.var (dep + 4)) (.lit (.i32 1)),
      -- 23: len -= bs - pos;
      .set (dep + 1) (.bin .sub (.var (dep + 1)) (.bin .sub (.var (dep + 2)) (.var r_pos))),
      -- 24: data += bs - pos;
      .set (dep + 0) (.bin .add (.var (dep + 0)) (.bin .sub (.var (dep + 2)) (.var r_pos))),
      -- 25: total += bs * 8;
      .set r_total (.bin .add (.var r_total) (.bin .mul (.var (dep + 2)) (.lit (.i32 8)))),
      -- 26: pos = 0;
      .set r_pos (.lit (.i32 0))
    ])) .skip,
    -- 28: if (len >= bschk)
    .ite (.bin .ge (.var (dep + 1)) (.var (dep + 3))) (.scope (block [
      -- 30: size_t blocks = (len + bs - bschk) / bs;
      .decl .u64 (.bin .div (.bin .sub (.bin .add (.var (dep + 1)) (.var (dep + 2))) (.var (dep + 3))) (.var (dep + 2))),
      -- 31: size_t bytes = blocks * bs;
      .decl .u64 (.bin .mul (.var (dep + 5)) (.var (dep + 2))),
      -- 32: transform(data, blocks);
      .call 0 (.var (dep + 0)) (.var (dep + 5)),
      -- 33: len -= bytes;
      .set (dep + 1) (.bin .sub (.var (dep + 1)) (.var (dep + 6))),
      -- 34: data += bytes;
      .set (dep + 0) (.bin .add (.var (dep + 0)) (.var (dep + 6))),
      -- 35: total += (bytes)* 8;
      .set r_total (.bin .add (.var r_total) (.bin .mul (.var (dep + 6)) (.lit (.i32 8))))
    ])) .skip,
    -- 37: memcpy(m + pos, data, len);
    .memcpy (.bin .add (.var (dep + 4)) (.var r_pos)) (.var (dep + 0)) (.var (dep + 1)),
    -- 38: pos += len;
    .set r_pos (.bin .add (.var r_pos) (.var (dep + 1)))
  ])])

end Digestpp.Cpp.Src.Absorb
