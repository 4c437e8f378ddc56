import Verif.Cpp.Semantics

/-! C71. `detail/functions.hpp`. Written by tools/cpp2lean.py from the text of the library. -/

namespace Digestpp.Cpp.Src

/-- functions.hpp 67-70: `rotate_left32`. -/
def rotate_left32 : Expr := .cast .u32 (.bin .or (.bin .shl (.arg 0) (.arg 1)) (.bin .shr (.arg 0) (.bin .sub (.lit (.i32 32)) (.arg 1))))

/-- functions.hpp 79-82: `rotate_left64`. -/
def rotate_left64 : Expr := .cast .u64 (.bin .or (.bin .shl (.arg 0) (.arg 1)) (.bin .shr (.arg 0) (.bin .sub (.lit (.i32 64)) (.arg 1))))

/-- functions.hpp: the overloads of `rotate_left`. -/
def rotate_left : Expr := .over rotate_left32 rotate_left64

/-- functions.hpp 61-64: `rotate_right32`. -/
def rotate_right32 : Expr := .cast .u32 (.bin .or (.bin .shr (.arg 0) (.arg 1)) (.bin .shl (.arg 0) (.bin .sub (.lit (.i32 32)) (.arg 1))))

/-- functions.hpp 73-76: `rotate_right64`. -/
def rotate_right64 : Expr := .cast .u64 (.bin .or (.bin .shr (.arg 0) (.arg 1)) (.bin .shl (.arg 0) (.bin .sub (.lit (.i32 64)) (.arg 1))))

/-- functions.hpp: the overloads of `rotate_right`. -/
def rotate_right : Expr := .over rotate_right32 rotate_right64

/-- functions.hpp 22-28: `byteswap32`. -/
def byteswap32 : Expr := .cast .u32 (.bin .or (.bin .or (.bin .or (.bin .shr (.bin .and (.arg 0) (.lit (.u32 0xff000000))) (.lit (.i32 24))) (.bin .shr (.bin .and (.arg 0) (.lit (.i32 0x00ff0000))) (.lit (.i32 8)))) (.bin .shl (.bin .and (.arg 0) (.lit (.i32 0x0000ff00))) (.lit (.i32 8)))) (.bin .shl (.bin .and (.arg 0) (.lit (.i32 0x000000ff))) (.lit (.i32 24))))

/-- functions.hpp 31-41: `byteswap64`. -/
def byteswap64 : Expr := .cast .u64 (.bin .or (.bin .or (.bin .or (.bin .or (.bin .or (.bin .or (.bin .or (.bin .shr (.bin .and (.arg 0) (.lit (.u64 0xff00000000000000))) (.lit (.i32 56))) (.bin .shr (.bin .and (.arg 0) (.lit (.u64 0x00ff000000000000))) (.lit (.i32 40)))) (.bin .shr (.bin .and (.arg 0) (.lit (.u64 0x0000ff0000000000))) (.lit (.i32 24)))) (.bin .shr (.bin .and (.arg 0) (.lit (.u64 0x000000ff00000000))) (.lit (.i32 8)))) (.bin .shl (.bin .and (.arg 0) (.lit (.u64 0x00000000ff000000))) (.lit (.i32 8)))) (.bin .shl (.bin .and (.arg 0) (.lit (.u64 0x0000000000ff0000))) (.lit (.i32 24)))) (.bin .shl (.bin .and (.arg 0) (.lit (.u64 0x000000000000ff00))) (.lit (.i32 40)))) (.bin .shl (.bin .and (.arg 0) (.lit (.u64 0x00000000000000ff))) (.lit (.i32 56))))

/-- functions.hpp: the overloads of `byteswap`. -/
def byteswap : Expr := .over byteswap32 byteswap64

end Digestpp.Cpp.Src
