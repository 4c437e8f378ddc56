import Verif.Vocab

/-! C56: written by tools/gen_inverse.py. Nothing is assumed about these numbers: what is claimed of them is checked where they are used. -/

namespace Digestpp.Proofs.Perm

def groestlRows : List Nat :=
  [0xfa51a97ceef95b0f, 0xceeab2cb663f41f8, 0x2952e27afc2b7658, 0x151b6f696c8360b0, 0xcf50a60457565e74,
   0x4e8d4a34482f12f6, 0x8ec9bae72cb70ac7, 0x38ecdf3c46b1ab73, 0x51a97ceef95b0ffa, 0xeab2cb663f41f8ce,
   0x52e27afc2b765829, 0x1b6f696c8360b015, 0x50a60457565e74cf, 0x8d4a34482f12f64e, 0xc9bae72cb70ac78e,
   0xecdf3c46b1ab7338, 0xa97ceef95b0ffa51, 0xb2cb663f41f8ceea, 0xe27afc2b76582952, 0x6f696c8360b0151b,
   0xa60457565e74cf50, 0x4a34482f12f64e8d, 0xbae72cb70ac78ec9, 0xdf3c46b1ab7338ec, 0x7ceef95b0ffa51a9,
   0xcb663f41f8ceeab2, 0x7afc2b76582952e2, 0x696c8360b0151b6f, 0x0457565e74cf50a6, 0x34482f12f64e8d4a,
   0xe72cb70ac78ec9ba, 0x3c46b1ab7338ecdf, 0xeef95b0ffa51a97c, 0x663f41f8ceeab2cb, 0xfc2b76582952e27a,
   0x6c8360b0151b6f69, 0x57565e74cf50a604, 0x482f12f64e8d4a34, 0x2cb70ac78ec9bae7, 0x46b1ab7338ecdf3c,
   0xf95b0ffa51a97cee, 0x3f41f8ceeab2cb66, 0x2b76582952e27afc, 0x8360b0151b6f696c, 0x565e74cf50a60457,
   0x2f12f64e8d4a3448, 0xb70ac78ec9bae72c, 0xb1ab7338ecdf3c46, 0x5b0ffa51a97ceef9, 0x41f8ceeab2cb663f,
   0x76582952e27afc2b, 0x60b0151b6f696c83, 0x5e74cf50a6045756, 0x12f64e8d4a34482f, 0x0ac78ec9bae72cb7,
   0xab7338ecdf3c46b1, 0x0ffa51a97ceef95b, 0xf8ceeab2cb663f41, 0x582952e27afc2b76, 0xb0151b6f696c8360,
   0x74cf50a60457565e, 0xf64e8d4a34482f12, 0xc78ec9bae72cb70a, 0x7338ecdf3c46b1ab]

def groestlBox0 : List Nat :=
  [1, 2, 4, 8, 16, 32, 13, 64, 90, 128, 44, 116, 28, 207, 205, 132, 107, 30, 76, 130, 49, 221, 94, 183, 71,
   232, 108, 224, 157, 230, 169, 237, 233, 59, 182, 248, 208, 113, 189, 225, 119, 102, 50, 55, 142, 228, 218, 133, 45, 231,
   85, 202, 9, 27, 173, 23, 10, 143, 185, 56, 153, 120, 68, 163, 161, 158, 126, 174, 46, 141, 250, 203, 219, 92, 79,
   196, 211, 184, 89, 148, 91, 69, 0, 19, 114, 187, 99, 122, 160, 235, 72, 251, 210, 88, 93, 198, 197, 180, 77, 177,
   115, 216, 125, 20, 249, 22, 167, 37, 124, 86, 186, 234, 252, 236, 84, 146, 54, 29, 123, 26, 239, 105, 67, 242, 40,
   156, 144, 98, 97, 12, 15, 147, 87, 155, 121, 34, 192, 193, 165, 214, 11, 240, 137, 41, 38, 57, 127, 201, 213, 244,
   145, 152, 222, 52, 194, 5, 110, 215, 6, 195, 159, 253, 220, 134, 245, 138, 95, 112, 74, 226, 199, 129, 17, 60, 178,
   175, 149, 204, 80, 170, 53, 104, 255, 106, 42, 246, 154, 25, 139, 136, 96, 33, 101, 47, 223, 217, 36, 65, 206, 103,
   190, 73, 35, 3, 82, 111, 191, 63, 14, 241, 78, 172, 117, 39, 61, 171, 166, 247, 118, 66, 51, 109, 164, 58, 31,
   150, 176, 168, 135, 100, 18, 188, 151, 131, 179, 62, 70, 209, 83, 238, 181, 75, 24, 140, 200, 21, 243, 7, 212, 48,
   254, 43, 227, 81, 229, 162]

def groestlInv0 : List Nat :=
  [82, 0, 1, 203, 2, 155, 158, 247, 3, 52, 56, 140, 129, 6, 208, 130, 4, 172, 230, 83, 103, 245, 105, 55, 242,
   187, 119, 53, 12, 117, 17, 224, 5, 191, 135, 202, 196, 107, 144, 213, 124, 143, 184, 251, 10, 48, 68, 193, 249, 20,
   42, 220, 153, 180, 116, 43, 59, 145, 223, 33, 173, 214, 235, 207, 7, 197, 219, 122, 62, 81, 236, 24, 90, 201, 168,
   241, 18, 98, 210, 74, 178, 253, 204, 238, 114, 50, 109, 132, 93, 78, 8, 80, 73, 94, 22, 166, 190, 128, 127, 86,
   229, 192, 41, 199, 181, 121, 183, 16, 26, 221, 156, 205, 167, 37, 84, 100, 11, 212, 218, 40, 61, 134, 87, 118, 108,
   102, 66, 146, 9, 171, 19, 233, 15, 47, 163, 228, 189, 142, 165, 188, 243, 69, 44, 57, 126, 150, 115, 131, 79, 176,
   225, 232, 151, 60, 186, 133, 125, 28, 65, 160, 88, 64, 255, 63, 222, 138, 216, 106, 227, 30, 179, 215, 211, 54, 67,
   175, 226, 99, 174, 234, 97, 240, 34, 23, 77, 58, 110, 85, 231, 38, 200, 206, 136, 137, 154, 159, 75, 96, 95, 170,
   244, 147, 51, 71, 177, 14, 198, 13, 36, 237, 92, 76, 248, 148, 139, 157, 101, 195, 46, 72, 162, 21, 152, 194, 27,
   39, 169, 252, 45, 254, 29, 49, 25, 32, 111, 89, 113, 31, 239, 120, 141, 209, 123, 246, 149, 164, 185, 217, 35, 104,
   70, 91, 112, 161, 250, 182]

def groestlBox : List (List Nat) := [groestlBox0, groestlBox0, groestlBox0, groestlBox0, groestlBox0, groestlBox0, groestlBox0, groestlBox0]

def whirlpoolRows : List Nat :=
  [0x700a37371294f533, 0xfe5ef8f85b32ce7d, 0x74e74c4c8699507c, 0x7b95bcbc69b03c98, 0x44d613131f754254,
   0x5f55bfbfd99f67b9, 0x035d4a4a6a88c472, 0x59be848446b20e43, 0x0a37371294f53370, 0x5ef8f85b32ce7dfe,
   0xe74c4c8699507c74, 0x95bcbc69b03c987b, 0xd613131f75425444, 0x55bfbfd99f67b95f, 0x5d4a4a6a88c47203,
   0xbe848446b20e4359, 0x37371294f533700a, 0xf8f85b32ce7dfe5e, 0x4c4c8699507c74e7, 0xbcbc69b03c987b95,
   0x13131f75425444d6, 0xbfbfd99f67b95f55, 0x4a4a6a88c472035d, 0x848446b20e4359be, 0x371294f533700a37,
   0xf85b32ce7dfe5ef8, 0x4c8699507c74e74c, 0xbc69b03c987b95bc, 0x131f75425444d613, 0xbfd99f67b95f55bf,
   0x4a6a88c472035d4a, 0x8446b20e4359be84, 0x1294f533700a3737, 0x5b32ce7dfe5ef8f8, 0x8699507c74e74c4c,
   0x69b03c987b95bcbc, 0x1f75425444d61313, 0xd99f67b95f55bfbf, 0x6a88c472035d4a4a, 0x46b20e4359be8484,
   0x94f533700a373712, 0x32ce7dfe5ef8f85b, 0x99507c74e74c4c86, 0xb03c987b95bcbc69, 0x75425444d613131f,
   0x9f67b95f55bfbfd9, 0x88c472035d4a4a6a, 0xb20e4359be848446, 0xf533700a37371294, 0xce7dfe5ef8f85b32,
   0x507c74e74c4c8699, 0x3c987b95bcbc69b0, 0x425444d613131f75, 0x67b95f55bfbfd99f, 0xc472035d4a4a6a88,
   0x0e4359be848446b2, 0x33700a37371294f5, 0x7dfe5ef8f85b32ce, 0x7c74e74c4c869950, 0x987b95bcbc69b03c,
   0x5444d613131f7542, 0xb95f55bfbfd99f67, 0x72035d4a4a6a88c4, 0x4359be848446b20e]

def whirlpoolBox0 : List Nat :=
  [1, 2, 4, 8, 16, 32, 64, 128, 13, 200, 75, 122, 141, 24, 133, 242, 204, 19, 34, 45, 187, 78, 87, 151, 114,
   117, 56, 55, 12, 179, 157, 129, 15, 25, 77, 6, 17, 9, 243, 54, 85, 208, 165, 167, 29, 33, 43, 202, 83, 38,
   124, 58, 10, 112, 115, 101, 70, 49, 20, 94, 136, 190, 182, 236, 238, 225, 254, 37, 159, 213, 253, 81, 74, 150, 137,
   169, 47, 143, 35, 126, 86, 218, 134, 240, 144, 65, 105, 172, 211, 239, 207, 196, 98, 113, 62, 93, 72, 212, 226, 185,
   201, 227, 215, 41, 221, 23, 197, 252, 152, 177, 219, 181, 110, 27, 95, 66, 255, 73, 42, 166, 84, 125, 119, 59, 118,
   97, 183, 234, 108, 0, 57, 127, 89, 99, 120, 155, 46, 245, 107, 40, 39, 147, 228, 161, 48, 91, 251, 210, 191, 250,
   76, 237, 5, 50, 7, 90, 31, 195, 233, 30, 135, 156, 148, 168, 22, 162, 92, 44, 52, 158, 235, 21, 138, 106, 217,
   26, 188, 205, 153, 247, 209, 82, 175, 140, 199, 216, 139, 232, 206, 68, 71, 51, 104, 248, 194, 14, 174, 69, 36, 171,
   3, 198, 121, 60, 109, 192, 244, 146, 170, 249, 246, 160, 96, 230, 214, 11, 220, 88, 222, 154, 193, 103, 100, 28, 63,
   186, 173, 178, 223, 231, 203, 130, 164, 131, 224, 189, 111, 132, 79, 53, 149, 67, 241, 61, 176, 180, 145, 123, 163, 142,
   184, 18, 229, 102, 116, 80]

def whirlpoolInv0 : List Nat :=
  [129, 0, 1, 200, 2, 152, 35, 154, 3, 37, 52, 215, 28, 8, 195, 32, 4, 36, 251, 17, 58, 171, 164, 105, 13,
   33, 175, 113, 223, 44, 159, 156, 5, 45, 18, 78, 198, 67, 49, 140, 139, 103, 118, 46, 167, 19, 136, 76, 144, 57,
   153, 191, 168, 239, 39, 27, 26, 130, 51, 123, 203, 243, 94, 224, 6, 85, 115, 241, 189, 197, 56, 190, 96, 117, 72,
   10, 150, 34, 21, 238, 255, 71, 181, 48, 120, 40, 80, 22, 217, 132, 155, 145, 166, 95, 59, 114, 212, 125, 92, 133,
   222, 55, 253, 221, 192, 86, 173, 138, 128, 204, 112, 236, 53, 93, 24, 54, 254, 25, 124, 122, 134, 202, 11, 247, 50,
   121, 79, 131, 7, 31, 231, 233, 237, 14, 82, 160, 60, 74, 172, 186, 183, 12, 249, 77, 84, 246, 207, 141, 162, 240,
   73, 23, 108, 178, 219, 135, 161, 30, 169, 68, 211, 143, 165, 248, 232, 42, 119, 43, 163, 75, 208, 199, 87, 226, 196,
   182, 244, 109, 227, 29, 245, 111, 62, 126, 250, 99, 225, 20, 176, 235, 61, 148, 205, 220, 194, 157, 91, 106, 201, 184,
   9, 100, 47, 230, 16, 177, 188, 90, 41, 180, 147, 88, 97, 69, 214, 102, 185, 174, 81, 110, 216, 104, 218, 228, 234,
   65, 98, 101, 142, 252, 213, 229, 187, 158, 127, 170, 63, 151, 64, 89, 83, 242, 15, 38, 206, 137, 210, 179, 193, 209,
   149, 146, 107, 70, 66, 116]

def whirlpoolBox : List (List Nat) := [whirlpoolBox0, whirlpoolBox0, whirlpoolBox0, whirlpoolBox0, whirlpoolBox0, whirlpoolBox0, whirlpoolBox0, whirlpoolBox0]

def kupynaRows : List Nat :=
  [0x5bd6424291653467, 0x5ed2d35c8a35723c, 0x29e332cac9fa81d6, 0xca280ad5e90e5b58, 0xd4ed9c84fa6ce536,
   0xe0444d868c0b183e, 0x23e6279d83ea7ecd, 0x2eaed830101665f5, 0x70b6a5f93ddb6380, 0x456193d01add737a,
   0x6a04b9bfaf38c976, 0xea31cd70adf51479, 0xc7cb349e7cd59aaa, 0x96c572ecebb135c9, 0x2ca981692b333a09,
   0xbda25b281b1fce34, 0x0b0ce6da04c0b34e, 0x08b808579b2f5153, 0x350dc4e56ebf7919, 0x2f0fb85d715f55b6,
   0x80db850da9145944, 0x2ddd7bc8e729bdbb, 0x51380dce855aed8c, 0xbaf5ac295a92dc75, 0x0748e1846b3c8d01,
   0xa65e388606c4bfc7, 0x74a3969d4a1eb51d, 0xdeffd130f974294a, 0x04886ad9b19a64af, 0x9b71ff8b99bd43f2,
   0x6e1c3e55bf8b9bff, 0x71a0eefee6127d37, 0x916534675bd64242, 0x8a35723c5ed2d35c, 0xc9fa81d629e332ca,
   0xe90e5b58ca280ad5, 0xfa6ce536d4ed9c84, 0x8c0b183ee0444d86, 0x83ea7ecd23e6279d, 0x101665f52eaed830,
   0x3ddb638070b6a5f9, 0x1add737a456193d0, 0xaf38c9766a04b9bf, 0xadf51479ea31cd70, 0x7cd59aaac7cb349e,
   0xebb135c996c572ec, 0x2b333a092ca98169, 0x1b1fce34bda25b28, 0x04c0b34e0b0ce6da, 0x9b2f515308b80857,
   0x6ebf7919350dc4e5, 0x715f55b62f0fb85d, 0xa914594480db850d, 0xe729bdbb2ddd7bc8, 0x855aed8c51380dce,
   0x5a92dc75baf5ac29, 0x6b3c8d010748e184, 0x06c4bfc7a65e3886, 0x4a1eb51d74a3969d, 0xf974294adeffd130,
   0xb19a64af04886ad9, 0x99bd43f29b71ff8b, 0xbf8b9bff6e1c3e55, 0xe6127d3771a0eefe]

def kupynaBox0 : List Nat :=
  [1, 2, 4, 8, 16, 32, 64, 12, 30, 23, 67, 128, 165, 85, 71, 149, 24, 59, 94, 220, 234, 199, 44, 81, 211,
   160, 182, 254, 46, 207, 10, 191, 239, 33, 162, 241, 7, 49, 29, 197, 104, 164, 147, 248, 249, 188, 136, 119, 208, 112,
   35, 235, 210, 221, 174, 101, 107, 96, 236, 103, 84, 242, 154, 148, 121, 99, 125, 122, 90, 158, 189, 28, 21, 140, 111,
   151, 142, 118, 62, 143, 26, 240, 150, 98, 238, 253, 177, 124, 73, 213, 187, 157, 202, 89, 60, 52, 20, 161, 166, 105,
   72, 222, 170, 247, 27, 192, 58, 41, 231, 229, 17, 48, 233, 68, 225, 18, 34, 47, 15, 137, 214, 22, 194, 51, 203,
   123, 205, 255, 69, 159, 144, 179, 106, 113, 56, 100, 212, 237, 135, 57, 183, 86, 134, 200, 3, 45, 38, 209, 77, 218,
   228, 70, 227, 108, 95, 79, 50, 42, 190, 97, 139, 173, 88, 198, 0, 126, 43, 204, 25, 54, 196, 120, 116, 163, 250,
   78, 87, 252, 186, 146, 9, 53, 232, 114, 6, 83, 13, 115, 216, 55, 93, 215, 66, 61, 109, 224, 76, 110, 180, 219,
   246, 102, 39, 92, 230, 223, 129, 37, 5, 91, 251, 171, 131, 152, 153, 14, 65, 80, 201, 244, 217, 133, 206, 178, 63,
   175, 141, 245, 138, 31, 155, 243, 195, 74, 193, 172, 226, 130, 40, 184, 75, 167, 127, 11, 169, 82, 156, 36, 117, 185,
   168, 132, 181, 176, 145, 19]

def kupynaInv0 : List Nat :=
  [164, 0, 1, 144, 2, 208, 184, 36, 3, 180, 30, 243, 7, 186, 215, 118, 4, 110, 115, 255, 96, 72, 121, 9, 16,
   168, 80, 104, 71, 38, 8, 229, 5, 33, 116, 50, 247, 207, 146, 202, 238, 107, 157, 166, 22, 145, 28, 117, 111, 37,
   156, 123, 95, 181, 169, 189, 134, 139, 106, 17, 94, 193, 78, 224, 6, 216, 192, 10, 113, 128, 151, 14, 100, 88, 233,
   240, 196, 148, 175, 155, 217, 23, 245, 185, 60, 13, 141, 176, 162, 93, 68, 209, 203, 190, 18, 154, 57, 159, 83, 65,
   135, 55, 201, 59, 40, 99, 132, 56, 153, 194, 197, 74, 49, 133, 183, 187, 172, 248, 77, 47, 171, 64, 67, 125, 87,
   66, 165, 242, 11, 206, 237, 212, 251, 221, 142, 138, 46, 119, 228, 160, 73, 226, 76, 79, 130, 254, 179, 42, 63, 15,
   82, 75, 213, 214, 62, 230, 246, 91, 69, 129, 25, 97, 34, 173, 41, 12, 98, 241, 250, 244, 102, 211, 235, 161, 54,
   225, 253, 86, 223, 131, 198, 252, 26, 140, 239, 249, 178, 90, 45, 70, 158, 31, 105, 234, 122, 232, 170, 39, 163, 21,
   143, 218, 92, 124, 167, 126, 222, 29, 48, 147, 52, 24, 136, 89, 120, 191, 188, 220, 149, 199, 19, 53, 101, 205, 195,
   114, 236, 152, 150, 109, 204, 108, 182, 112, 20, 51, 58, 137, 84, 32, 81, 35, 61, 231, 219, 227, 200, 103, 43, 44,
   174, 210, 177, 85, 27, 127]

def kupynaBox1 : List Nat :=
  [1, 2, 4, 8, 16, 32, 64, 128, 158, 74, 245, 44, 192, 146, 117, 68, 82, 239, 169, 131, 205, 193, 102, 70, 181,
   9, 69, 22, 95, 189, 87, 71, 254, 209, 217, 60, 7, 75, 190, 216, 3, 129, 154, 162, 219, 247, 172, 211, 45, 139,
   177, 197, 58, 29, 253, 127, 19, 251, 174, 237, 51, 206, 96, 185, 110, 88, 194, 240, 173, 100, 204, 222, 78, 38, 214,
   93, 97, 179, 134, 37, 199, 98, 201, 178, 155, 229, 224, 108, 72, 230, 150, 116, 109, 81, 236, 52, 11, 144, 242, 101,
   61, 233, 113, 220, 84, 27, 12, 145, 114, 83, 62, 36, 234, 85, 13, 227, 104, 151, 107, 41, 111, 118, 63, 175, 77,
   89, 210, 135, 132, 250, 186, 0, 183, 226, 39, 55, 218, 123, 157, 21, 149, 160, 241, 18, 57, 28, 122, 235, 161, 115,
   46, 243, 180, 221, 137, 76, 187, 152, 182, 168, 244, 112, 54, 124, 49, 94, 34, 120, 133, 200, 255, 26, 86, 31, 24,
   80, 232, 103, 92, 91, 208, 164, 140, 66, 176, 15, 170, 141, 213, 5, 17, 33, 106, 121, 167, 30, 50, 105, 138, 246,
   73, 153, 212, 125, 42, 156, 228, 198, 6, 130, 165, 23, 136, 56, 248, 249, 196, 203, 207, 143, 79, 188, 119, 99, 184,
   43, 65, 90, 231, 35, 147, 215, 191, 53, 59, 142, 223, 202, 238, 40, 25, 14, 20, 126, 166, 171, 195, 67, 48, 163,
   252, 159, 47, 148, 10, 225]

def kupynaInv1 : List Nat :=
  [131, 0, 1, 40, 2, 189, 208, 36, 3, 25, 254, 96, 106, 114, 241, 185, 4, 190, 143, 56, 242, 139, 27, 211, 174,
   240, 171, 105, 145, 53, 195, 173, 5, 191, 166, 229, 111, 79, 73, 134, 239, 119, 204, 225, 11, 48, 150, 252, 248, 164,
   196, 60, 95, 233, 162, 135, 213, 144, 52, 234, 35, 100, 110, 122, 6, 226, 183, 247, 15, 26, 23, 31, 88, 200, 9,
   37, 155, 124, 72, 220, 175, 93, 16, 109, 104, 113, 172, 30, 65, 125, 227, 179, 178, 75, 165, 28, 62, 76, 81, 223,
   69, 99, 22, 177, 116, 197, 192, 118, 87, 92, 64, 120, 161, 102, 108, 149, 91, 14, 121, 222, 167, 193, 146, 137, 163,
   203, 243, 55, 7, 41, 209, 19, 128, 168, 78, 127, 212, 154, 198, 49, 182, 187, 235, 219, 97, 107, 13, 230, 253, 140,
   90, 117, 157, 201, 42, 84, 205, 138, 8, 251, 141, 148, 43, 249, 181, 210, 244, 194, 159, 18, 186, 245, 46, 68, 58,
   123, 184, 50, 83, 77, 152, 24, 158, 132, 224, 63, 130, 156, 221, 29, 38, 232, 12, 21, 66, 246, 216, 51, 207, 80,
   169, 82, 237, 217, 70, 20, 61, 218, 180, 33, 126, 47, 202, 188, 74, 231, 39, 34, 136, 44, 103, 153, 71, 236, 86,
   255, 133, 115, 206, 85, 89, 228, 176, 101, 112, 147, 94, 59, 238, 17, 67, 142, 98, 151, 160, 10, 199, 45, 214, 215,
   129, 57, 250, 54, 32, 170]

def kupynaBox2 : List Nat :=
  [1, 2, 4, 8, 16, 32, 59, 64, 48, 55, 63, 20, 114, 116, 128, 218, 3, 240, 37, 129, 99, 26, 111, 167, 109,
   136, 180, 46, 185, 235, 175, 254, 72, 213, 149, 93, 172, 91, 192, 174, 148, 179, 165, 207, 24, 161, 88, 255, 209, 71,
   188, 234, 214, 177, 28, 87, 5, 183, 103, 18, 62, 96, 106, 74, 66, 154, 101, 75, 205, 0, 222, 83, 94, 153, 42,
   134, 102, 199, 132, 208, 146, 113, 117, 45, 97, 233, 169, 168, 7, 250, 200, 40, 76, 155, 156, 23, 226, 135, 224, 137,
   230, 57, 123, 181, 159, 36, 12, 228, 197, 152, 73, 252, 245, 17, 118, 58, 187, 30, 10, 140, 68, 31, 33, 215, 121,
   212, 184, 237, 186, 144, 51, 243, 85, 158, 130, 244, 247, 81, 190, 164, 210, 141, 216, 49, 86, 173, 79, 182, 223, 56,
   196, 29, 110, 166, 60, 19, 193, 206, 77, 147, 53, 124, 189, 170, 98, 225, 150, 13, 52, 176, 242, 191, 253, 198, 249,
   248, 160, 54, 219, 232, 220, 34, 44, 202, 84, 125, 39, 65, 82, 119, 43, 6, 203, 67, 90, 120, 139, 25, 151, 221,
   178, 9, 126, 239, 92, 80, 241, 204, 104, 69, 238, 70, 95, 231, 157, 50, 131, 127, 138, 35, 122, 15, 251, 21, 14,
   11, 217, 133, 108, 47, 78, 211, 227, 142, 195, 38, 145, 61, 112, 100, 89, 41, 236, 22, 163, 229, 246, 162, 171, 143,
   107, 201, 105, 115, 194, 27]

def kupynaInv2 : List Nat :=
  [69, 0, 1, 16, 2, 56, 191, 88, 3, 201, 118, 225, 106, 167, 224, 221, 4, 113, 59, 155, 11, 223, 243, 95, 44,
   197, 21, 255, 54, 151, 117, 121, 5, 122, 181, 219, 105, 18, 235, 186, 91, 241, 74, 190, 182, 83, 27, 229, 8, 143,
   215, 130, 168, 160, 177, 9, 149, 101, 115, 6, 154, 237, 60, 10, 7, 187, 64, 193, 120, 209, 211, 49, 32, 110, 63,
   67, 92, 158, 230, 146, 205, 137, 188, 71, 184, 132, 144, 55, 46, 240, 194, 37, 204, 35, 72, 212, 61, 84, 164, 20,
   239, 66, 76, 58, 208, 252, 62, 250, 228, 24, 152, 22, 238, 81, 12, 253, 13, 82, 114, 189, 195, 124, 220, 102, 161,
   185, 202, 217, 14, 19, 134, 216, 78, 227, 75, 97, 25, 99, 218, 196, 119, 141, 233, 249, 129, 236, 80, 159, 40, 34,
   166, 198, 109, 73, 65, 93, 94, 214, 133, 104, 176, 45, 247, 244, 139, 42, 153, 23, 87, 86, 163, 248, 36, 145, 39,
   30, 169, 53, 200, 41, 26, 103, 147, 57, 126, 28, 128, 116, 50, 162, 138, 171, 38, 156, 254, 234, 150, 108, 173, 77,
   90, 251, 183, 192, 207, 68, 157, 43, 79, 48, 140, 231, 125, 33, 52, 123, 142, 226, 15, 178, 180, 199, 70, 148, 98,
   165, 96, 232, 107, 245, 100, 213, 179, 85, 51, 29, 242, 127, 210, 203, 17, 206, 170, 131, 135, 112, 246, 136, 175, 174,
   89, 222, 111, 172, 31, 47]

def kupynaBox3 : List Nat :=
  [1, 2, 4, 8, 16, 32, 64, 103, 117, 128, 65, 26, 168, 113, 160, 136, 216, 72, 255, 80, 182, 217, 121, 149, 174,
   211, 131, 140, 9, 30, 229, 141, 142, 7, 223, 177, 188, 200, 172, 31, 52, 24, 81, 166, 21, 206, 169, 150, 88, 238,
   205, 183, 215, 44, 220, 162, 25, 191, 157, 232, 129, 93, 154, 130, 50, 48, 41, 151, 3, 28, 195, 245, 37, 185, 196,
   189, 33, 100, 62, 125, 118, 127, 35, 244, 181, 104, 164, 143, 77, 138, 46, 171, 89, 147, 79, 161, 233, 78, 134, 90,
   94, 197, 95, 186, 204, 98, 83, 67, 155, 29, 139, 190, 109, 116, 15, 38, 240, 156, 11, 69, 111, 105, 27, 126, 214,
   51, 146, 198, 22, 207, 230, 124, 175, 179, 246, 180, 96, 53, 159, 137, 144, 60, 184, 70, 66, 85, 122, 61, 47, 187,
   148, 10, 45, 42, 251, 57, 114, 235, 243, 227, 234, 254, 58, 222, 173, 56, 209, 153, 145, 199, 250, 170, 20, 236, 102,
   219, 152, 59, 0, 74, 208, 49, 249, 106, 226, 6, 225, 213, 248, 5, 210, 86, 101, 34, 115, 110, 14, 40, 75, 158,
   19, 252, 192, 218, 176, 87, 68, 201, 178, 82, 108, 84, 18, 228, 12, 23, 36, 239, 123, 203, 212, 163, 221, 13, 253,
   165, 73, 112, 92, 63, 135, 231, 247, 91, 43, 107, 193, 132, 120, 167, 39, 97, 202, 133, 119, 242, 241, 55, 54, 194,
   237, 76, 224, 17, 99, 71]

def kupynaInv3 : List Nat :=
  [178, 0, 1, 68, 2, 189, 185, 33, 3, 28, 151, 118, 214, 223, 196, 114, 4, 253, 212, 200, 172, 44, 128, 215, 41,
   56, 11, 122, 69, 109, 29, 39, 5, 76, 193, 82, 216, 72, 115, 240, 197, 66, 153, 234, 53, 152, 90, 148, 65, 181,
   64, 125, 40, 137, 248, 247, 165, 155, 162, 177, 141, 147, 78, 229, 6, 10, 144, 107, 206, 119, 143, 255, 17, 226, 179,
   198, 251, 88, 97, 94, 19, 42, 209, 106, 211, 145, 191, 205, 48, 92, 99, 233, 228, 61, 100, 102, 136, 241, 105, 254,
   77, 192, 174, 7, 85, 121, 183, 235, 210, 112, 195, 120, 227, 13, 156, 194, 113, 8, 80, 244, 238, 22, 146, 218, 131,
   79, 123, 81, 9, 60, 63, 26, 237, 243, 98, 230, 15, 139, 89, 110, 27, 31, 32, 87, 140, 168, 126, 93, 150, 23,
   47, 67, 176, 167, 62, 108, 117, 58, 199, 138, 14, 95, 55, 221, 86, 225, 43, 239, 12, 46, 171, 91, 38, 164, 24,
   132, 204, 35, 208, 133, 135, 84, 20, 51, 142, 73, 103, 149, 36, 75, 111, 57, 202, 236, 249, 70, 74, 101, 127, 169,
   37, 207, 242, 219, 104, 50, 45, 129, 180, 166, 190, 25, 220, 187, 124, 52, 16, 21, 203, 175, 54, 222, 163, 34, 252,
   186, 184, 159, 213, 30, 130, 231, 59, 96, 160, 157, 173, 250, 49, 217, 116, 246, 245, 158, 83, 71, 134, 232, 188, 182,
   170, 154, 201, 224, 161, 18]

def kupynaBox : List (List Nat) := [kupynaBox0, kupynaBox1, kupynaBox2, kupynaBox3, kupynaBox0, kupynaBox1, kupynaBox2, kupynaBox3]

def streebogRows : List Nat :=
  [0x2910684a1daa2087, 0x54293607d066df40, 0xbc546a1997a480e7, 0xd3bcd8a269f45978, 0xfcd39968b33a451f,
   0x34fcfb36c416103e, 0x84342d6accb52964, 0x2b8426d8c258544a, 0x7047cb4403548632, 0x11fedb956bbcc518,
   0xacdaf2875dd34927, 0xfa77a64037fc6cc6, 0xa8081ae7ef344422, 0x880ec97876849531, 0x5792351f8d2b8773,
   0xd79e013ea0ba407a, 0x2b503d0f3131a9b6, 0xbace0f1773730d33, 0x4f2c17307a7af99d, 0xf0a330f6f1f1c389,
   0x48edf6d4cdcdd5d2, 0xe998d4e547476079, 0xea7ee596fefe389a, 0x818396ecdadaf890, 0xdc461b082f9138d9,
   0xeb7b4c0ec8f5f81c, 0x04749b92b0bf4655, 0x7263159eafb87b39, 0xff53dee291a1747d, 0x5fa5058ff50363e8,
   0xd971f74ebf6b536f, 0x1c945175b85da52f, 0xbb2e880a18e042d8, 0xca4d57e027610999, 0x5e1ed761c6bd8bfb,
   0x5cbb8ebd22563c2d, 0xb2cacb5631528a26, 0x415edb527320b943, 0x625cf2207adf248c, 0xd6b2a6dff180ad25,
   0x1a48c966ab6018e6, 0xc9e935a4e33827fd, 0x35ea01f40af8c6b1, 0x0181853ae046222a, 0x85dcae16617b313f,
   0xaeeb14b5bd7473e1, 0x14045b5856637ae4, 0x5b72abc05253f113, 0xbde82d1389e3967f, 0x566f2642d20aec06,
   0x522f430979e01d9c, 0x20c88c8b9a61d00c, 0xdfb0253c90bd977c, 0x80af288a7056696d, 0x5991d1b91152b3c1,
   0x45f51224ac20c43b, 0x0a144728c8d28724, 0xe05bfed1b07940ad, 0x61abda12af9ae77f, 0xbde377c791907806,
   0x560a08a7f5701f9c, 0x52e00e9fbf113e0c, 0x20619267b8ac647c, 0xdfbd9e21a1fa4a6d]

def streebogBox0 : List Nat :=
  [1, 2, 4, 8, 7, 16, 32, 64, 73, 128, 100, 76, 35, 173, 67, 51, 74, 148, 206, 97, 60, 193, 150, 181, 109,
   104, 227, 152, 102, 33, 48, 238, 111, 169, 151, 94, 205, 59, 47, 5, 63, 234, 194, 247, 149, 45, 251, 21, 110, 81,
   38, 211, 224, 83, 214, 58, 101, 135, 9, 187, 24, 165, 237, 225, 108, 78, 231, 217, 65, 79, 93, 189, 232, 130, 117,
   28, 44, 167, 42, 12, 113, 220, 233, 145, 140, 207, 185, 3, 219, 250, 46, 153, 248, 87, 22, 90, 75, 23, 82, 137,
   37, 91, 157, 139, 197, 26, 80, 61, 213, 222, 57, 50, 43, 178, 132, 239, 10, 99, 184, 53, 27, 183, 166, 18, 200,
   253, 226, 188, 34, 160, 107, 155, 228, 182, 218, 98, 174, 125, 131, 171, 19, 14, 190, 11, 235, 196, 36, 15, 118, 116,
   31, 208, 41, 103, 164, 244, 56, 6, 170, 123, 114, 127, 249, 215, 204, 0, 223, 146, 143, 147, 129, 52, 186, 243, 77,
   252, 216, 191, 180, 17, 96, 29, 154, 236, 221, 49, 84, 62, 88, 136, 89, 138, 72, 120, 20, 209, 119, 245, 199, 134,
   13, 69, 126, 168, 158, 71, 163, 179, 198, 162, 25, 112, 30, 201, 66, 39, 240, 255, 144, 55, 105, 106, 124, 212, 40,
   241, 177, 121, 202, 175, 161, 115, 68, 176, 70, 230, 246, 133, 54, 210, 85, 95, 159, 192, 142, 141, 92, 195, 203, 156,
   254, 229, 172, 86, 242, 122]

def streebogInv0 : List Nat :=
  [165, 0, 1, 87, 2, 39, 157, 4, 3, 58, 116, 143, 79, 200, 141, 147, 5, 179, 123, 140, 194, 47, 94, 97, 60,
   210, 105, 120, 75, 181, 212, 150, 6, 29, 128, 12, 146, 100, 50, 215, 224, 152, 78, 112, 76, 45, 90, 38, 30, 185,
   111, 15, 171, 119, 238, 219, 156, 110, 55, 37, 20, 107, 187, 40, 7, 68, 214, 14, 232, 201, 234, 205, 192, 8, 16,
   96, 11, 174, 65, 69, 106, 49, 98, 53, 186, 240, 253, 93, 188, 190, 95, 101, 246, 70, 35, 241, 180, 19, 135, 117,
   10, 56, 28, 153, 25, 220, 221, 130, 64, 24, 48, 32, 211, 80, 160, 231, 149, 74, 148, 196, 193, 227, 255, 159, 222,
   137, 202, 161, 9, 170, 73, 138, 114, 237, 199, 57, 189, 99, 191, 103, 84, 245, 244, 168, 218, 83, 167, 169, 17, 44,
   22, 34, 27, 91, 182, 131, 249, 102, 204, 242, 129, 230, 209, 206, 154, 61, 122, 77, 203, 33, 158, 139, 252, 13, 136,
   229, 233, 226, 113, 207, 178, 23, 133, 121, 118, 86, 172, 59, 127, 71, 142, 177, 243, 21, 42, 247, 145, 104, 208, 198,
   124, 213, 228, 248, 164, 36, 18, 85, 151, 195, 239, 51, 223, 108, 54, 163, 176, 67, 134, 88, 81, 184, 109, 166, 52,
   63, 126, 26, 132, 251, 235, 66, 72, 82, 41, 144, 183, 62, 31, 115, 216, 225, 254, 173, 155, 197, 236, 43, 92, 162,
   89, 46, 175, 125, 250, 217]

def streebogBox : List (List Nat) := [streebogBox0, streebogBox0, streebogBox0, streebogBox0, streebogBox0, streebogBox0, streebogBox0, streebogBox0]

def echoRows : List Nat :=
  [0x068ca1ab, 0xa2ae8f24, 0x7e775f7b, 0x5d07750e, 0xe3c5919f, 0x08e55cc3, 0x3daa8447, 0xbd4393d4,
   0x8ca1ab06, 0xae8f24a2, 0x775f7b7e, 0x07750e5d, 0xc5919fe3, 0xe55cc308, 0xaa84473d, 0x4393d4bd,
   0xa1ab068c, 0x8f24a2ae, 0x5f7b7e77, 0x750e5d07, 0x919fe3c5, 0x5cc308e5, 0x84473daa, 0x93d4bd43,
   0xab068ca1, 0x24a2ae8f, 0x7b7e775f, 0x0e5d0775, 0x9fe3c591, 0xc308e55c, 0x473daa84, 0xd4bd4393]

def echoBox0 : List Nat :=
  [1, 2, 4, 8, 16, 32, 13, 64, 90, 128, 44, 116, 28, 207, 205, 132, 107, 30, 76, 130, 49, 221, 94, 183, 71,
   232, 108, 224, 157, 230, 169, 237, 233, 59, 182, 248, 208, 113, 189, 225, 119, 102, 50, 55, 142, 228, 218, 133, 45, 231,
   85, 202, 9, 27, 173, 23, 10, 143, 185, 56, 153, 120, 68, 163, 161, 158, 126, 174, 46, 141, 250, 203, 219, 92, 79,
   196, 211, 184, 89, 148, 91, 69, 0, 19, 114, 187, 99, 122, 160, 235, 72, 251, 210, 88, 93, 198, 197, 180, 77, 177,
   115, 216, 125, 20, 249, 22, 167, 37, 124, 86, 186, 234, 252, 236, 84, 146, 54, 29, 123, 26, 239, 105, 67, 242, 40,
   156, 144, 98, 97, 12, 15, 147, 87, 155, 121, 34, 192, 193, 165, 214, 11, 240, 137, 41, 38, 57, 127, 201, 213, 244,
   145, 152, 222, 52, 194, 5, 110, 215, 6, 195, 159, 253, 220, 134, 245, 138, 95, 112, 74, 226, 199, 129, 17, 60, 178,
   175, 149, 204, 80, 170, 53, 104, 255, 106, 42, 246, 154, 25, 139, 136, 96, 33, 101, 47, 223, 217, 36, 65, 206, 103,
   190, 73, 35, 3, 82, 111, 191, 63, 14, 241, 78, 172, 117, 39, 61, 171, 166, 247, 118, 66, 51, 109, 164, 58, 31,
   150, 176, 168, 135, 100, 18, 188, 151, 131, 179, 62, 70, 209, 83, 238, 181, 75, 24, 140, 200, 21, 243, 7, 212, 48,
   254, 43, 227, 81, 229, 162]

def echoInv0 : List Nat :=
  [82, 0, 1, 203, 2, 155, 158, 247, 3, 52, 56, 140, 129, 6, 208, 130, 4, 172, 230, 83, 103, 245, 105, 55, 242,
   187, 119, 53, 12, 117, 17, 224, 5, 191, 135, 202, 196, 107, 144, 213, 124, 143, 184, 251, 10, 48, 68, 193, 249, 20,
   42, 220, 153, 180, 116, 43, 59, 145, 223, 33, 173, 214, 235, 207, 7, 197, 219, 122, 62, 81, 236, 24, 90, 201, 168,
   241, 18, 98, 210, 74, 178, 253, 204, 238, 114, 50, 109, 132, 93, 78, 8, 80, 73, 94, 22, 166, 190, 128, 127, 86,
   229, 192, 41, 199, 181, 121, 183, 16, 26, 221, 156, 205, 167, 37, 84, 100, 11, 212, 218, 40, 61, 134, 87, 118, 108,
   102, 66, 146, 9, 171, 19, 233, 15, 47, 163, 228, 189, 142, 165, 188, 243, 69, 44, 57, 126, 150, 115, 131, 79, 176,
   225, 232, 151, 60, 186, 133, 125, 28, 65, 160, 88, 64, 255, 63, 222, 138, 216, 106, 227, 30, 179, 215, 211, 54, 67,
   175, 226, 99, 174, 234, 97, 240, 34, 23, 77, 58, 110, 85, 231, 38, 200, 206, 136, 137, 154, 159, 75, 96, 95, 170,
   244, 147, 51, 71, 177, 14, 198, 13, 36, 237, 92, 76, 248, 148, 139, 157, 101, 195, 46, 72, 162, 21, 152, 194, 27,
   39, 169, 252, 45, 254, 29, 49, 25, 32, 111, 89, 113, 31, 239, 120, 141, 209, 123, 246, 149, 164, 185, 217, 35, 104,
   70, 91, 112, 161, 250, 182]

def echoBox : List (List Nat) := [echoBox0, echoBox0, echoBox0, echoBox0]

end Digestpp.Proofs.Perm
