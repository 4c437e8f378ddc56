import Verif.Cpp.Src.Absorb
import Verif.Model.Tables.Sha3

/-! C71. `transform`, `init`, `update` and `final` of `sha3_provider.hpp` and what they call, with 24 rounds. Array 0 is what `data` or `hash` points to, 1 is `m`, 2 is `A`, 3 is `C`, 4 is `D`. Variables are the parameters, followed by `pos` and `total`. `hs` and `rate`, which are assigned in the constructors only, are given. `permute` is the `transform` with one parameter, in the place where it is called. Written by tools/cpp2lean.py from the text of the library. -/

namespace Digestpp.Cpp.Src.Sha3
open Absorb

/-- sha3_provider.hpp 25: `for (int round = 24 - R; round < 24; round++)`. -/
def for25 : Stmt := for' (.decl .i32 (.bin .sub (.lit (.i32 24)) (.lit (.i32 24)))) (.bin .lt (.var 5) (.lit (.i32 24))) (.set 5 (.bin .add (.var 5) (.lit (.i32 1)))) (block [
    -- 27: uint64_t C[5], D[5];
    -- 28: C[0] = A[0 * 5 + 0] ^ A[1 * 5 + 0] ^ A[2 * 5 + 0] ^ A[3 * 5 + 0] ^ A[4 * 5 + 0];
    .store 3 (.lit (.i32 0)) (.bin .xor (.bin .xor (.bin .xor (.bin .xor (.idx 2 (.bin .add (.bin .mul (.lit (.i32 0)) (.lit (.i32 5))) (.lit (.i32 0)))) (.idx 2 (.bin .add (.bin .mul (.lit (.i32 1)) (.lit (.i32 5))) (.lit (.i32 0))))) (.idx 2 (.bin .add (.bin .mul (.lit (.i32 2)) (.lit (.i32 5))) (.lit (.i32 0))))) (.idx 2 (.bin .add (.bin .mul (.lit (.i32 3)) (.lit (.i32 5))) (.lit (.i32 0))))) (.idx 2 (.bin .add (.bin .mul (.lit (.i32 4)) (.lit (.i32 5))) (.lit (.i32 0))))),
    -- 29: C[1] = A[0 * 5 + 1] ^ A[1 * 5 + 1] ^ A[2 * 5 + 1] ^ A[3 * 5 + 1] ^ A[4 * 5 + 1];
    .store 3 (.lit (.i32 1)) (.bin .xor (.bin .xor (.bin .xor (.bin .xor (.idx 2 (.bin .add (.bin .mul (.lit (.i32 0)) (.lit (.i32 5))) (.lit (.i32 1)))) (.idx 2 (.bin .add (.bin .mul (.lit (.i32 1)) (.lit (.i32 5))) (.lit (.i32 1))))) (.idx 2 (.bin .add (.bin .mul (.lit (.i32 2)) (.lit (.i32 5))) (.lit (.i32 1))))) (.idx 2 (.bin .add (.bin .mul (.lit (.i32 3)) (.lit (.i32 5))) (.lit (.i32 1))))) (.idx 2 (.bin .add (.bin .mul (.lit (.i32 4)) (.lit (.i32 5))) (.lit (.i32 1))))),
    -- 30: C[2] = A[0 * 5 + 2] ^ A[1 * 5 + 2] ^ A[2 * 5 + 2] ^ A[3 * 5 + 2] ^ A[4 * 5 + 2];
    .store 3 (.lit (.i32 2)) (.bin .xor (.bin .xor (.bin .xor (.bin .xor (.idx 2 (.bin .add (.bin .mul (.lit (.i32 0)) (.lit (.i32 5))) (.lit (.i32 2)))) (.idx 2 (.bin .add (.bin .mul (.lit (.i32 1)) (.lit (.i32 5))) (.lit (.i32 2))))) (.idx 2 (.bin .add (.bin .mul (.lit (.i32 2)) (.lit (.i32 5))) (.lit (.i32 2))))) (.idx 2 (.bin .add (.bin .mul (.lit (.i32 3)) (.lit (.i32 5))) (.lit (.i32 2))))) (.idx 2 (.bin .add (.bin .mul (.lit (.i32 4)) (.lit (.i32 5))) (.lit (.i32 2))))),
    -- 31: C[3] = A[0 * 5 + 3] ^ A[1 * 5 + 3] ^ A[2 * 5 + 3] ^ A[3 * 5 + 3] ^ A[4 * 5 + 3];
    .store 3 (.lit (.i32 3)) (.bin .xor (.bin .xor (.bin .xor (.bin .xor (.idx 2 (.bin .add (.bin .mul (.lit (.i32 0)) (.lit (.i32 5))) (.lit (.i32 3)))) (.idx 2 (.bin .add (.bin .mul (.lit (.i32 1)) (.lit (.i32 5))) (.lit (.i32 3))))) (.idx 2 (.bin .add (.bin .mul (.lit (.i32 2)) (.lit (.i32 5))) (.lit (.i32 3))))) (.idx 2 (.bin .add (.bin .mul (.lit (.i32 3)) (.lit (.i32 5))) (.lit (.i32 3))))) (.idx 2 (.bin .add (.bin .mul (.lit (.i32 4)) (.lit (.i32 5))) (.lit (.i32 3))))),
    -- 32: C[4] = A[0 * 5 + 4] ^ A[1 * 5 + 4] ^ A[2 * 5 + 4] ^ A[3 * 5 + 4] ^ A[4 * 5 + 4];
    .store 3 (.lit (.i32 4)) (.bin .xor (.bin .xor (.bin .xor (.bin .xor (.idx 2 (.bin .add (.bin .mul (.lit (.i32 0)) (.lit (.i32 5))) (.lit (.i32 4)))) (.idx 2 (.bin .add (.bin .mul (.lit (.i32 1)) (.lit (.i32 5))) (.lit (.i32 4))))) (.idx 2 (.bin .add (.bin .mul (.lit (.i32 2)) (.lit (.i32 5))) (.lit (.i32 4))))) (.idx 2 (.bin .add (.bin .mul (.lit (.i32 3)) (.lit (.i32 5))) (.lit (.i32 4))))) (.idx 2 (.bin .add (.bin .mul (.lit (.i32 4)) (.lit (.i32 5))) (.lit (.i32 4))))),
    -- 34: D[0] = C[4] ^ rotate_left(C[1], 1);
    .store 4 (.lit (.i32 0)) (.bin .xor (.idx 3 (.lit (.i32 4))) (.ret rotate_left (.push (.idx 3 (.lit (.i32 1))) (.push (.cast .u32 (.lit (.i32 1))) .nil)))),
    -- 35: D[1] = C[0] ^ rotate_left(C[2], 1);
    .store 4 (.lit (.i32 1)) (.bin .xor (.idx 3 (.lit (.i32 0))) (.ret rotate_left (.push (.idx 3 (.lit (.i32 2))) (.push (.cast .u32 (.lit (.i32 1))) .nil)))),
    -- 36: D[2] = C[1] ^ rotate_left(C[3], 1);
    .store 4 (.lit (.i32 2)) (.bin .xor (.idx 3 (.lit (.i32 1))) (.ret rotate_left (.push (.idx 3 (.lit (.i32 3))) (.push (.cast .u32 (.lit (.i32 1))) .nil)))),
    -- 37: D[3] = C[2] ^ rotate_left(C[4], 1);
    .store 4 (.lit (.i32 3)) (.bin .xor (.idx 3 (.lit (.i32 2))) (.ret rotate_left (.push (.idx 3 (.lit (.i32 4))) (.push (.cast .u32 (.lit (.i32 1))) .nil)))),
    -- 38: D[4] = C[3] ^ rotate_left(C[0], 1);
    .store 4 (.lit (.i32 4)) (.bin .xor (.idx 3 (.lit (.i32 3))) (.ret rotate_left (.push (.idx 3 (.lit (.i32 0))) (.push (.cast .u32 (.lit (.i32 1))) .nil)))),
    -- 40: uint64_t B00 = A[0 * 5 + 0] ^ D[0];
    .decl .u64 (.bin .xor (.idx 2 (.bin .add (.bin .mul (.lit (.i32 0)) (.lit (.i32 5))) (.lit (.i32 0)))) (.idx 4 (.lit (.i32 0)))),
    -- 41: uint64_t B10 = rotate_left(A[0 * 5 + 1] ^ D[1], 1);
    .decl .u64 (.ret rotate_left (.push (.bin .xor (.idx 2 (.bin .add (.bin .mul (.lit (.i32 0)) (.lit (.i32 5))) (.lit (.i32 1)))) (.idx 4 (.lit (.i32 1)))) (.push (.cast .u32 (.lit (.i32 1))) .nil))),
    -- 42: uint64_t B20 = rotate_left(A[0 * 5 + 2] ^ D[2], 62);
    .decl .u64 (.ret rotate_left (.push (.bin .xor (.idx 2 (.bin .add (.bin .mul (.lit (.i32 0)) (.lit (.i32 5))) (.lit (.i32 2)))) (.idx 4 (.lit (.i32 2)))) (.push (.cast .u32 (.lit (.i32 62))) .nil))),
    -- 43: uint64_t B5 = rotate_left(A[0 * 5 + 3] ^ D[3], 28);
    .decl .u64 (.ret rotate_left (.push (.bin .xor (.idx 2 (.bin .add (.bin .mul (.lit (.i32 0)) (.lit (.i32 5))) (.lit (.i32 3)))) (.idx 4 (.lit (.i32 3)))) (.push (.cast .u32 (.lit (.i32 28))) .nil))),
    -- 44: uint64_t B15 = rotate_left(A[0 * 5 + 4] ^ D[4], 27);
    .decl .u64 (.ret rotate_left (.push (.bin .xor (.idx 2 (.bin .add (.bin .mul (.lit (.i32 0)) (.lit (.i32 5))) (.lit (.i32 4)))) (.idx 4 (.lit (.i32 4)))) (.push (.cast .u32 (.lit (.i32 27))) .nil))),
    -- 46: uint64_t B16 = rotate_left(A[1 * 5 + 0] ^ D[0], 36);
    .decl .u64 (.ret rotate_left (.push (.bin .xor (.idx 2 (.bin .add (.bin .mul (.lit (.i32 1)) (.lit (.i32 5))) (.lit (.i32 0)))) (.idx 4 (.lit (.i32 0)))) (.push (.cast .u32 (.lit (.i32 36))) .nil))),
    -- 47: uint64_t B1 = rotate_left(A[1 * 5 + 1] ^ D[1], 44);
    .decl .u64 (.ret rotate_left (.push (.bin .xor (.idx 2 (.bin .add (.bin .mul (.lit (.i32 1)) (.lit (.i32 5))) (.lit (.i32 1)))) (.idx 4 (.lit (.i32 1)))) (.push (.cast .u32 (.lit (.i32 44))) .nil))),
    -- 48: uint64_t B11 = rotate_left(A[1 * 5 + 2] ^ D[2], 6);
    .decl .u64 (.ret rotate_left (.push (.bin .xor (.idx 2 (.bin .add (.bin .mul (.lit (.i32 1)) (.lit (.i32 5))) (.lit (.i32 2)))) (.idx 4 (.lit (.i32 2)))) (.push (.cast .u32 (.lit (.i32 6))) .nil))),
    -- 49: uint64_t B21 = rotate_left(A[1 * 5 + 3] ^ D[3], 55);
    .decl .u64 (.ret rotate_left (.push (.bin .xor (.idx 2 (.bin .add (.bin .mul (.lit (.i32 1)) (.lit (.i32 5))) (.lit (.i32 3)))) (.idx 4 (.lit (.i32 3)))) (.push (.cast .u32 (.lit (.i32 55))) .nil))),
    -- 50: uint64_t B6 = rotate_left(A[1 * 5 + 4] ^ D[4], 20);
    .decl .u64 (.ret rotate_left (.push (.bin .xor (.idx 2 (.bin .add (.bin .mul (.lit (.i32 1)) (.lit (.i32 5))) (.lit (.i32 4)))) (.idx 4 (.lit (.i32 4)))) (.push (.cast .u32 (.lit (.i32 20))) .nil))),
    -- 52: uint64_t B7 = rotate_left(A[2 * 5 + 0] ^ D[0], 3);
    .decl .u64 (.ret rotate_left (.push (.bin .xor (.idx 2 (.bin .add (.bin .mul (.lit (.i32 2)) (.lit (.i32 5))) (.lit (.i32 0)))) (.idx 4 (.lit (.i32 0)))) (.push (.cast .u32 (.lit (.i32 3))) .nil))),
    -- 53: uint64_t B17 = rotate_left(A[2 * 5 + 1] ^ D[1], 10);
    .decl .u64 (.ret rotate_left (.push (.bin .xor (.idx 2 (.bin .add (.bin .mul (.lit (.i32 2)) (.lit (.i32 5))) (.lit (.i32 1)))) (.idx 4 (.lit (.i32 1)))) (.push (.cast .u32 (.lit (.i32 10))) .nil))),
    -- 54: uint64_t B2 = rotate_left(A[2 * 5 + 2] ^ D[2], 43);
    .decl .u64 (.ret rotate_left (.push (.bin .xor (.idx 2 (.bin .add (.bin .mul (.lit (.i32 2)) (.lit (.i32 5))) (.lit (.i32 2)))) (.idx 4 (.lit (.i32 2)))) (.push (.cast .u32 (.lit (.i32 43))) .nil))),
    -- 55: uint64_t B12 = rotate_left(A[2 * 5 + 3] ^ D[3], 25);
    .decl .u64 (.ret rotate_left (.push (.bin .xor (.idx 2 (.bin .add (.bin .mul (.lit (.i32 2)) (.lit (.i32 5))) (.lit (.i32 3)))) (.idx 4 (.lit (.i32 3)))) (.push (.cast .u32 (.lit (.i32 25))) .nil))),
    -- 56: uint64_t B22 = rotate_left(A[2 * 5 + 4] ^ D[4], 39);
    .decl .u64 (.ret rotate_left (.push (.bin .xor (.idx 2 (.bin .add (.bin .mul (.lit (.i32 2)) (.lit (.i32 5))) (.lit (.i32 4)))) (.idx 4 (.lit (.i32 4)))) (.push (.cast .u32 (.lit (.i32 39))) .nil))),
    -- 58: uint64_t B23 = rotate_left(A[3 * 5 + 0] ^ D[0], 41);
    .decl .u64 (.ret rotate_left (.push (.bin .xor (.idx 2 (.bin .add (.bin .mul (.lit (.i32 3)) (.lit (.i32 5))) (.lit (.i32 0)))) (.idx 4 (.lit (.i32 0)))) (.push (.cast .u32 (.lit (.i32 41))) .nil))),
    -- 59: uint64_t B8 = rotate_left(A[3 * 5 + 1] ^ D[1], 45);
    .decl .u64 (.ret rotate_left (.push (.bin .xor (.idx 2 (.bin .add (.bin .mul (.lit (.i32 3)) (.lit (.i32 5))) (.lit (.i32 1)))) (.idx 4 (.lit (.i32 1)))) (.push (.cast .u32 (.lit (.i32 45))) .nil))),
    -- 60: uint64_t B18 = rotate_left(A[3 * 5 + 2] ^ D[2], 15);
    .decl .u64 (.ret rotate_left (.push (.bin .xor (.idx 2 (.bin .add (.bin .mul (.lit (.i32 3)) (.lit (.i32 5))) (.lit (.i32 2)))) (.idx 4 (.lit (.i32 2)))) (.push (.cast .u32 (.lit (.i32 15))) .nil))),
    -- 61: uint64_t B3 = rotate_left(A[3 * 5 + 3] ^ D[3], 21);
    .decl .u64 (.ret rotate_left (.push (.bin .xor (.idx 2 (.bin .add (.bin .mul (.lit (.i32 3)) (.lit (.i32 5))) (.lit (.i32 3)))) (.idx 4 (.lit (.i32 3)))) (.push (.cast .u32 (.lit (.i32 21))) .nil))),
    -- 62: uint64_t B13 = rotate_left(A[3 * 5 + 4] ^ D[4], 8);
    .decl .u64 (.ret rotate_left (.push (.bin .xor (.idx 2 (.bin .add (.bin .mul (.lit (.i32 3)) (.lit (.i32 5))) (.lit (.i32 4)))) (.idx 4 (.lit (.i32 4)))) (.push (.cast .u32 (.lit (.i32 8))) .nil))),
    -- 64: uint64_t B14 = rotate_left(A[4 * 5 + 0] ^ D[0], 18);
    .decl .u64 (.ret rotate_left (.push (.bin .xor (.idx 2 (.bin .add (.bin .mul (.lit (.i32 4)) (.lit (.i32 5))) (.lit (.i32 0)))) (.idx 4 (.lit (.i32 0)))) (.push (.cast .u32 (.lit (.i32 18))) .nil))),
    -- 65: uint64_t B24 = rotate_left(A[4 * 5 + 1] ^ D[1], 2);
    .decl .u64 (.ret rotate_left (.push (.bin .xor (.idx 2 (.bin .add (.bin .mul (.lit (.i32 4)) (.lit (.i32 5))) (.lit (.i32 1)))) (.idx 4 (.lit (.i32 1)))) (.push (.cast .u32 (.lit (.i32 2))) .nil))),
    -- 66: uint64_t B9 = rotate_left(A[4 * 5 + 2] ^ D[2], 61);
    .decl .u64 (.ret rotate_left (.push (.bin .xor (.idx 2 (.bin .add (.bin .mul (.lit (.i32 4)) (.lit (.i32 5))) (.lit (.i32 2)))) (.idx 4 (.lit (.i32 2)))) (.push (.cast .u32 (.lit (.i32 61))) .nil))),
    -- 67: uint64_t B19 = rotate_left(A[4 * 5 + 3] ^ D[3], 56);
    .decl .u64 (.ret rotate_left (.push (.bin .xor (.idx 2 (.bin .add (.bin .mul (.lit (.i32 4)) (.lit (.i32 5))) (.lit (.i32 3)))) (.idx 4 (.lit (.i32 3)))) (.push (.cast .u32 (.lit (.i32 56))) .nil))),
    -- 68: uint64_t B4 = rotate_left(A[4 * 5 + 4] ^ D[4], 14);
    .decl .u64 (.ret rotate_left (.push (.bin .xor (.idx 2 (.bin .add (.bin .mul (.lit (.i32 4)) (.lit (.i32 5))) (.lit (.i32 4)))) (.idx 4 (.lit (.i32 4)))) (.push (.cast .u32 (.lit (.i32 14))) .nil))),
    -- 70: A[0 * 5 + 0] = B00 ^ ((~B1) & B2);
    .store 2 (.bin .add (.bin .mul (.lit (.i32 0)) (.lit (.i32 5))) (.lit (.i32 0))) (.bin .xor (.var 6) (.bin .and (.bnot (.var 12)) (.var 18))),
    -- 71: A[0 * 5 + 1] = B1 ^ ((~B2) & B3);
    .store 2 (.bin .add (.bin .mul (.lit (.i32 0)) (.lit (.i32 5))) (.lit (.i32 1))) (.bin .xor (.var 12) (.bin .and (.bnot (.var 18)) (.var 24))),
    -- 72: A[0 * 5 + 2] = B2 ^ ((~B3) & B4);
    .store 2 (.bin .add (.bin .mul (.lit (.i32 0)) (.lit (.i32 5))) (.lit (.i32 2))) (.bin .xor (.var 18) (.bin .and (.bnot (.var 24)) (.var 30))),
    -- 73: A[0 * 5 + 3] = B3 ^ ((~B4) & B00);
    .store 2 (.bin .add (.bin .mul (.lit (.i32 0)) (.lit (.i32 5))) (.lit (.i32 3))) (.bin .xor (.var 24) (.bin .and (.bnot (.var 30)) (.var 6))),
    -- 74: A[0 * 5 + 4] = B4 ^ ((~B00) & B1);
    .store 2 (.bin .add (.bin .mul (.lit (.i32 0)) (.lit (.i32 5))) (.lit (.i32 4))) (.bin .xor (.var 30) (.bin .and (.bnot (.var 6)) (.var 12))),
    -- 76: A[1 * 5 + 0] = B5 ^ ((~B6) & B7);
    .store 2 (.bin .add (.bin .mul (.lit (.i32 1)) (.lit (.i32 5))) (.lit (.i32 0))) (.bin .xor (.var 9) (.bin .and (.bnot (.var 15)) (.var 16))),
    -- 77: A[1 * 5 + 1] = B6 ^ ((~B7) & B8);
    .store 2 (.bin .add (.bin .mul (.lit (.i32 1)) (.lit (.i32 5))) (.lit (.i32 1))) (.bin .xor (.var 15) (.bin .and (.bnot (.var 16)) (.var 22))),
    -- 78: A[1 * 5 + 2] = B7 ^ ((~B8) & B9);
    .store 2 (.bin .add (.bin .mul (.lit (.i32 1)) (.lit (.i32 5))) (.lit (.i32 2))) (.bin .xor (.var 16) (.bin .and (.bnot (.var 22)) (.var 28))),
    -- 79: A[1 * 5 + 3] = B8 ^ ((~B9) & B5);
    .store 2 (.bin .add (.bin .mul (.lit (.i32 1)) (.lit (.i32 5))) (.lit (.i32 3))) (.bin .xor (.var 22) (.bin .and (.bnot (.var 28)) (.var 9))),
    -- 80: A[1 * 5 + 4] = B9 ^ ((~B5) & B6);
    .store 2 (.bin .add (.bin .mul (.lit (.i32 1)) (.lit (.i32 5))) (.lit (.i32 4))) (.bin .xor (.var 28) (.bin .and (.bnot (.var 9)) (.var 15))),
    -- 82: A[2 * 5 + 0] = B10 ^ ((~B11) & B12);
    .store 2 (.bin .add (.bin .mul (.lit (.i32 2)) (.lit (.i32 5))) (.lit (.i32 0))) (.bin .xor (.var 7) (.bin .and (.bnot (.var 13)) (.var 19))),
    -- 83: A[2 * 5 + 1] = B11 ^ ((~B12) & B13);
    .store 2 (.bin .add (.bin .mul (.lit (.i32 2)) (.lit (.i32 5))) (.lit (.i32 1))) (.bin .xor (.var 13) (.bin .and (.bnot (.var 19)) (.var 25))),
    -- 84: A[2 * 5 + 2] = B12 ^ ((~B13) & B14);
    .store 2 (.bin .add (.bin .mul (.lit (.i32 2)) (.lit (.i32 5))) (.lit (.i32 2))) (.bin .xor (.var 19) (.bin .and (.bnot (.var 25)) (.var 26))),
    -- 85: A[2 * 5 + 3] = B13 ^ ((~B14) & B10);
    .store 2 (.bin .add (.bin .mul (.lit (.i32 2)) (.lit (.i32 5))) (.lit (.i32 3))) (.bin .xor (.var 25) (.bin .and (.bnot (.var 26)) (.var 7))),
    -- 86: A[2 * 5 + 4] = B14 ^ ((~B10) & B11);
    .store 2 (.bin .add (.bin .mul (.lit (.i32 2)) (.lit (.i32 5))) (.lit (.i32 4))) (.bin .xor (.var 26) (.bin .and (.bnot (.var 7)) (.var 13))),
    -- 88: A[3 * 5 + 0] = B15 ^ ((~B16) & B17);
    .store 2 (.bin .add (.bin .mul (.lit (.i32 3)) (.lit (.i32 5))) (.lit (.i32 0))) (.bin .xor (.var 10) (.bin .and (.bnot (.var 11)) (.var 17))),
    -- 89: A[3 * 5 + 1] = B16 ^ ((~B17) & B18);
    .store 2 (.bin .add (.bin .mul (.lit (.i32 3)) (.lit (.i32 5))) (.lit (.i32 1))) (.bin .xor (.var 11) (.bin .and (.bnot (.var 17)) (.var 23))),
    -- 90: A[3 * 5 + 2] = B17 ^ ((~B18) & B19);
    .store 2 (.bin .add (.bin .mul (.lit (.i32 3)) (.lit (.i32 5))) (.lit (.i32 2))) (.bin .xor (.var 17) (.bin .and (.bnot (.var 23)) (.var 29))),
    -- 91: A[3 * 5 + 3] = B18 ^ ((~B19) & B15);
    .store 2 (.bin .add (.bin .mul (.lit (.i32 3)) (.lit (.i32 5))) (.lit (.i32 3))) (.bin .xor (.var 23) (.bin .and (.bnot (.var 29)) (.var 10))),
    -- 92: A[3 * 5 + 4] = B19 ^ ((~B15) & B16);
    .store 2 (.bin .add (.bin .mul (.lit (.i32 3)) (.lit (.i32 5))) (.lit (.i32 4))) (.bin .xor (.var 29) (.bin .and (.bnot (.var 10)) (.var 11))),
    -- 94: A[4 * 5 + 0] = B20 ^ ((~B21) & B22);
    .store 2 (.bin .add (.bin .mul (.lit (.i32 4)) (.lit (.i32 5))) (.lit (.i32 0))) (.bin .xor (.var 8) (.bin .and (.bnot (.var 14)) (.var 20))),
    -- 95: A[4 * 5 + 1] = B21 ^ ((~B22) & B23);
    .store 2 (.bin .add (.bin .mul (.lit (.i32 4)) (.lit (.i32 5))) (.lit (.i32 1))) (.bin .xor (.var 14) (.bin .and (.bnot (.var 20)) (.var 21))),
    -- 96: A[4 * 5 + 2] = B22 ^ ((~B23) & B24);
    .store 2 (.bin .add (.bin .mul (.lit (.i32 4)) (.lit (.i32 5))) (.lit (.i32 2))) (.bin .xor (.var 20) (.bin .and (.bnot (.var 21)) (.var 27))),
    -- 97: A[4 * 5 + 3] = B23 ^ ((~B24) & B20);
    .store 2 (.bin .add (.bin .mul (.lit (.i32 4)) (.lit (.i32 5))) (.lit (.i32 3))) (.bin .xor (.var 21) (.bin .and (.bnot (.var 27)) (.var 8))),
    -- 98: A[4 * 5 + 4] = B24 ^ ((~B20) & B21);
    .store 2 (.bin .add (.bin .mul (.lit (.i32 4)) (.lit (.i32 5))) (.lit (.i32 4))) (.bin .xor (.var 27) (.bin .and (.bnot (.var 8)) (.var 14))),
    -- 100: A[0] ^= sha3_constants<void>::RC[round];
    .store 2 (.lit (.i32 0)) (.bin .xor (.idx 2 (.lit (.i32 0))) (.tab (.a64 Model.sha3_RC) (.var 5)))
  ])

/-- sha3_provider.hpp 23-102. -/
def permute : Stmt := block [
    -- 25: for (int round = 24 - R; round < 24; round++)
    for25
  ]

/-- sha3_provider.hpp 111: `for (size_t i = 0; i < r64; i++)`. -/
def for111 : Stmt := for' (.decl .u64 (.lit (.i32 0))) (.bin .lt (.var 5) (.var 3)) (.set 5 (.bin .add (.var 5) (.lit (.i32 1)))) (block [
    -- 112: A[i] ^= reinterpret_cast<const uint64_t*>(data+blk*r)[i];
    .store 2 (.var 5) (.bin .xor (.idx 2 (.var 5)) (.at (.recast 8 (.bin .add (.var 0) (.bin .mul (.var 4) (.var 2)))) (.var 5)))
  ])

/-- sha3_provider.hpp 109: `for (uint64_t blk = 0; blk < num_blks; blk++)`. -/
def for109 : Stmt := for' (.decl .u64 (.lit (.i32 0))) (.bin .lt (.var 4) (.var 1)) (.set 4 (.bin .add (.var 4) (.lit (.i32 1)))) (block [
    -- 111: for (size_t i = 0; i < r64; i++)
    for111,
    -- 114: transform<R>(A);
    .scope permute
  ])

/-- sha3_provider.hpp 105-116. -/
def transform (rate : Nat) : Stmt := block [
    -- 107: size_t r = rate / 8;
    .decl .u64 (.bin .div (.lit (.u64 (BitVec.ofNat 64 rate))) (.lit (.i32 8))),
    -- 108: size_t r64 = rate / 64;
    .decl .u64 (.bin .div (.lit (.u64 (BitVec.ofNat 64 rate))) (.lit (.i32 64))),
    -- 109: for (uint64_t blk = 0; blk < num_blks; blk++)
    for109
  ]

/-- sha3_provider.hpp 172-175: `hash_size`. -/
def hash_size (hs : Nat) : Expr := .cast .u64 (.lit (.u64 (BitVec.ofNat 64 hs)))


/-- sha3_provider.hpp 148-153. -/
def init : Stmt := block [
    -- 150: zero_memory(A);
    .memset (.addr 2 (.lit (.i32 0))) (.lit (.i32 0)) (.lit (.u64 200)),
    -- 151: pos = 0;
    .set 0 (.lit (.i32 0)),
    -- 152: total = 0;
    .set 1 (.lit (.i32 0))
  ]


/-- sha3_provider.hpp 155-159. -/
def update (rate : Nat) : Stmt := block [
    -- 157: detail::absorb_bytes(data, len, rate / 8, rate / 8, m.data(), pos, total,
    absorb_bytes 4 (.var 0) (.var 1) (.bin .div (.lit (.u64 (BitVec.ofNat 64 rate))) (.lit (.i32 8))) (.bin .div (.lit (.u64 (BitVec.ofNat 64 rate))) (.lit (.i32 8))) (.addr 1 (.lit (.i32 0))) 2 3
  ]


/-- sha3_provider.hpp 161-170. -/
def final (hs : Nat) (rate : Nat) : Stmt := block [
    -- 163: size_t r = rate / 8;
    .decl .u64 (.bin .div (.lit (.u64 (BitVec.ofNat 64 rate))) (.lit (.i32 8))),
    -- 164: m[pos++] = 0x06;
    .store 1 (.var 1) (.lit (.i32 0x06)),
    .set 1 (.bin .add (.var 1) (.lit (.i32 1))),
    -- 165: if (r != pos)
    .ite (.bin .ne (.var 3) (.var 1)) (.scope (block [
      -- 166: memset(&m[pos], 0, r - pos);
      .memset (.addr 1 (.var 1)) (.lit (.i32 0)) (.bin .sub (.var 3) (.var 1))
    ])) .skip,
    -- 167: m[r - 1] |= 0x80;
    .store 1 (.bin .sub (.var 3) (.lit (.i32 1))) (.bin .or (.idx 1 (.bin .sub (.var 3) (.lit (.i32 1)))) (.lit (.i32 0x80))),
    -- 168: sha3_functions::transform<24>(m.data(), 1, A.data(), rate);
    .call 0 (.addr 1 (.lit (.i32 0))) (.lit (.i32 1)),
    -- 169: memcpy(hash, A.data(), hash_size() / 8);
    .memcpy (.var 0) (.addr 2 (.lit (.i32 0))) (.bin .div (.ret (hash_size hs) .nil) (.lit (.i32 8)))
  ]

end Digestpp.Cpp.Src.Sha3
