import Verif.Cpp.Src.Shake

/-! C71. `right_encode` of `shake_provider.hpp` and `squeeze` of `kmac_provider.hpp`. Array 0 is what `hash` points to, 1 to 4 are those of the member `shake`, 5 is `buf`. Variables are the parameters, `squeezing`, and those of `shake`. Function 2 is `update`, 3 is `shake.squeeze`. `xof` is the template argument `XOF`. Written by tools/cpp2lean.py from the text of the library. -/

namespace Digestpp.Cpp.Src.Kmac

/-- shake_provider.hpp 36-49: `right_encode`. -/
def right_encode (dep : Nat) (v_num : Expr) (v_buf : Expr) (v_k12 : Expr) (r_result : Nat) : Stmt := .scope (block [.decl .u64 v_num, .declp v_buf, .decl .bool v_k12, (block [
    -- 39: unsigned char n = k12 ? num ? 1 : 0 : 1;
    .decl .u8 (.cond (.var (dep + 2)) (.cond (.var (dep + 0)) (.lit (.i32 1)) (.lit (.i32 0))) (.lit (.i32 1))),
    -- 40: size_t tmp = num;
    .decl .u64 (.var (dep + 0)),
    -- 41: while (tmp >>= 8)
    .set (dep + 4) (.bin .shr (.var (dep + 4)) (.lit (.i32 8))),
    .while (.var (dep + 4)) (.seq (.scope (block [
      -- 42: ++n;
      .set (dep + 3) (.bin .add (.var (dep + 3)) (.lit (.i32 1)))
    ])) (.set (dep + 4) (.bin .shr (.var (dep + 4)) (.lit (.i32 8))))),
    -- 43: buf[n] = n;
    .storep (.var (dep + 1)) (.var (dep + 3)) (.var (dep + 3)),
    -- 44: size_t result = n + 1;
    .decl .u64 (.bin .add (.var (dep + 3)) (.lit (.i32 1))),
    -- 45: size_t i = 0;
    .decl .u64 (.lit (.i32 0)),
    -- 46: while (n--)
    .while (.var (dep + 3)) (.seq (.set (dep + 3) (.bin .sub (.var (dep + 3)) (.lit (.i32 1)))) (.scope (block [
      -- 47: buf[n] = static_cast<unsigned char>(num >> (8*i++));
      .storep (.var (dep + 1)) (.var (dep + 3)) (.cast .u8 (.bin .shr (.var (dep + 0)) (.bin .mul (.lit (.i32 8)) (.var (dep + 6))))),
      .set (dep + 6) (.bin .add (.var (dep + 6)) (.lit (.i32 1)))
    ]))),
    .set (dep + 3) (.bin .sub (.var (dep + 3)) (.lit (.i32 1))),
    -- 48: return result;
    .set r_result (.var (dep + 5))
  ])])


/-- kmac_provider.hpp 94-104. -/
def squeeze (xof : Bool) : Stmt := block [
    -- 96: if (!squeezing)
    .ite (.lnot (.var 2)) (.scope (block [
      -- 98: unsigned char buf[32];
      -- 99: size_t len = shake_functions::right_encode(!XOF ? hs * 8 : 0, buf, false);
      .declare .u64,
      right_encode 10 (.cond (.lnot (.lit (.bool xof))) (.bin .mul (.var 1) (.lit (.i32 8))) (.lit (.i32 0))) (.addr 5 (.lit (.i32 0))) (.lit (.bool false)) 9,
      -- 100: update(buf, len);
      .call 2 (.addr 5 (.lit (.i32 0))) (.var 9),
      -- 101: squeezing = true;
      .set 2 (.lit (.bool true))
    ])) .skip,
    -- 103: shake.squeeze(hash, hs);
    .call 3 (.var 0) (.var 1)
  ]

end Digestpp.Cpp.Src.Kmac
