import Verif.Tests
import Verif.Model.Unused

/-!
# The unit tests of the repository, run on the model

These evaluations are no proofs and no theorem depends on them. Each block transcribes one unit test of /repo/src, with
the literals of the test, and compares the model limb by limb with the value that the test demands of the code. Together
with `Verif.Tests` this covers every unit test of the repository but the random `batch_test_sign_verify`, whose claim
is theorem C05_roundtrip_partial and its neighbours for all keys.
-/

namespace Ed448.Tests

deriving instance BEq for BN, Pt, TwistedNiels

/-- A scalar from its 14 words. -/
def sc (l : List Nat) : Scalar :=
  if h : (l.map (BitVec.ofNat 32)).length = 14 then ⟨l.map (BitVec.ofNat 32), h⟩ else ⟨List.replicate 14 0, by simp⟩

/-- A field element from its 16 limbs. -/
def bn (l : List Nat) : BN := BN.ofList (l.map (BitVec.ofNat 32))

/-- A byte string. -/
def by8 (l : List Nat) : List Byte := l.map (BitVec.ofNat 8)

/-- A point from its four coordinates. -/
def pt (x y z t : List Nat) : Pt := ⟨bn x, bn y, bn z, bn t⟩

/-- An array of `n` bytes. -/
def arr (n : Nat) (l : List Byte) : Arr Byte n :=
  if h : l.length = n then ⟨l, h⟩ else ⟨List.replicate n 0, by simp⟩

/-- The value is the given one, and there is no panic. -/
def isOk {α : Type} [BEq α] (r : Rust α) (v : α) : Bool :=
  match r with
  | .ok a => a == v
  | .error _ => false

/-- `must_deserialize` of a literal of a test. -/
def md (l : List Byte) : BN := (Unused.must_deserialize (arr 56 l)).toOption.getD BIG_ZERO

/-! ## src/scalar.rs -/

-- test_scalar_copy
def copy0 : Scalar := sc
  [0xffb823a3, 0xc96a3c35, 0x7f8ed27d, 0x87b8fb9, 0x1d9ac30a, 0x74d65764, 0xc0be082e, 0xa8cb0ae8, 0xa8fa552b,
    0x2aae8688, 0x2c3dc273, 0x47cf8cac, 0x3b089f07, 0x1e63e807]
#guard (Unused.copy copy0).1 == copy0.1

-- test_scalar_set
#guard (Unused.set 0xee).1 == (sc [0xee, 0, 0, 0, 0, 0, 0, 0, 0, 0, 0, 0, 0, 0]).1

-- test_add_scalars
def add0 : Scalar := sc
  [0x529eec33, 0x721cf5b5, 0xc8e9c2ab, 0x7a4cf635, 0x44a725bf, 0xeec492d9, 0xcd77058, 2, 0, 0, 0, 0, 0, 0]
def add1 : Scalar := sc
  [1, 0, 0, 0, 0, 0, 0, 0, 0, 0, 0, 0, 0, 0]
def add2 : Scalar := sc
  [0x529eec34, 0x721cf5b5, 0xc8e9c2ab, 0x7a4cf635, 0x44a725bf, 0xeec492d9, 0xcd77058, 2, 0, 0, 0, 0, 0, 0]
#guard (scalarAdd add0 add1).1 == add2.1
#guard (scalarAdd add1 SCALAR_Q).1 == add1.1

-- test_sub_scalars
def small (w : Nat) : Scalar := sc [w, 0, 0, 0, 0, 0, 0, 0, 0, 0, 0, 0, 0, 0]
#guard (scalarSub (small 2) (small 1)).1 == (small 1).1
#guard (scalarSub (small 1) (small 2)).1 == (scalarSub SCALAR_Q (small 1)).1

-- test_scalar_halve
#guard (halve (small 0x0c)).1 == (small 0x06).1

-- test_montgomery_multiply
def mont0 : Scalar := sc
  [0xd013f18b, 0xa03bc31f, 0xa5586c00, 0x5269ccea, 0x80becb3f, 0x38058556, 0x736c3c5b, 0x7909887, 0x87190ede,
    0x2aae8688, 0x2c3dc273, 0x47cf8cac, 0x3b089f07, 0x1e63e807]
def mont1 : Scalar := sc
  [1, 0, 0, 0, 0, 0, 0, 0, 0, 0, 0, 0, 0, 0]
def mont2 : Scalar := sc
  [0xf19fb32f, 0x62bc6ae6, 0xed626086, 0xe2d81d7, 0x7a83d54b, 0x38e73799, 0x485ad3d6, 0x45399c9e, 0x824b12d9,
    0x5ae842c9, 0x5ca5b606, 0x3c0978b3, 0x893b4262, 0x22c93812]
def mont3 : Scalar := sc
  [0xd013f18b, 0xa03bc31f, 0xa5586c00, 0x5269ccea, 0x80becb3f, 0x38058556, 0x736c3c5b, 0x7909887, 0x87190ede,
    0x2aae8688, 0x2c3dc273, 0x47cf8cac, 0x3b089f07, 0x1e63e807]
def mont4 : Scalar := sc
  [0xffb823a3, 0xc96a3c35, 0x7f8ed27d, 0x87b8fb9, 0x1d9ac30a, 0x74d65764, 0xc0be082e, 0xa8cb0ae8, 0xa8fa552b,
    0x2aae8688, 0x2c3dc273, 0x47cf8cac, 0x3b089f07, 0x1e63e807]
def mont5 : Scalar := sc
  [0xd8bedc42, 0x686eb329, 0xe416b899, 0x17aa6d9b, 0x1e30b38b, 0x188c6b1a, 0xd099595b, 0xbc343bcb, 0x1adaa0e7,
    0x24e8d499, 0x8e59b308, 0xa92de2d, 0xcae1cb68, 0x16c5450a]
def mont6 : Scalar := sc
  [0x14aec10b, 0x426d3399, 0x3f79af9e, 0xb1f67159, 0x6aa5e214, 0x33819c2b, 0x19c30a89, 0x480bdc8b, 0x7b3e1c0f,
    0x5e01dfc8, 0x9414037f, 0x345954ce, 0x611e7191, 0x19381160]
#guard (montgomery_multiply mont0 mont1).1 == mont2.1
#guard (montgomery_multiply mont2 SCALAR_R2).1 == mont0.1
#guard (montgomery_multiply mont3 SCALAR_ZERO).1 == SCALAR_ZERO.1
#guard (montgomery_multiply mont4 mont5).1 == mont6.1

-- test_scalar_multiply
def smul0 : Scalar := sc
  [0xffb823a3, 0xc96a3c35, 0x7f8ed27d, 0x87b8fb9, 0x1d9ac30a, 0x74d65764, 0xc0be082e, 0xa8cb0ae8, 0xa8fa552b,
    0x2aae8688, 0x2c3dc273, 0x47cf8cac, 0x3b089f07, 0x1e63e807]
def smul1 : Scalar := sc
  [0xd8bedc42, 0x686eb329, 0xe416b899, 0x17aa6d9b, 0x1e30b38b, 0x188c6b1a, 0xd099595b, 0xbc343bcb, 0x1adaa0e7,
    0x24e8d499, 0x8e59b308, 0xa92de2d, 0xcae1cb68, 0x16c5450a]
def smul2 : Scalar := sc
  [0xa18d010a, 0x1f5b3197, 0x994c9c2b, 0x6abd26f5, 0x8a3a0e4, 0x36a14920, 0x74e9335f, 0x7bcd931, 0xf2d89c1e,
    0xb9036ff6, 0x203d424b, 0xfccd61b3, 0x4ca389ed, 0x31e055c1]
#guard (scalarMul smul0 smul1).1 == smul2.1

-- test_scalar_decode
def dec0 : List Byte := by8
  [0xf5, 0x81, 0x74, 0xd5, 0x7a, 0x33, 0x72, 0x36, 0x3c, 0xd, 0x9f, 0xcf, 0xaa, 0x3d, 0xc1, 0x8b, 0x1e, 0xff, 0x7e,
    0x89, 0xbf, 0x76, 0x78, 0x63, 0x65, 0x80, 0xd1, 0x7d, 0xd8, 0x4a, 0x87, 0x3b, 0x14, 0xb9, 0xc0, 0xe1, 0x68, 0xb,
    0xbd, 0xc8, 0x76, 0x47, 0xf3, 0xc3, 0x82, 0x90, 0x2d, 0x2f, 0x58, 0xd2, 0x75, 0x4b, 0x39, 0xbc, 0xa8, 0x74]
def dec1 : Scalar := sc
  [0x2a1c3d02, 0x12f970e8, 0x41d97de7, 0x6a547b38, 0xdaa8c88e, 0x9f299b75, 0x1075c7b, 0x3b874ad9, 0xe1c0b914,
    0xc8bd0b68, 0xc3f34776, 0x2f2d9082, 0x4b75d258, 0x34a8bc39]
def dec2 : List Byte := by8
  [0xf0, 0xe4, 0x4d, 0xd4, 0x98, 0xf3, 0xad, 0x30, 0x83, 0xe1, 0xf5, 0xfc, 0xc1, 0x44, 0xed, 0x1f, 0xf5, 0xfb, 0x62,
    0x5b, 0xa6, 0x21, 0x41, 0xa8, 0xde, 0x2a, 0x90, 0x23, 0x13, 0xb3, 0x1a, 0xd1, 0x41, 0x13, 0x42, 0x94, 0xdb, 0x9b,
    0xd, 0x84, 0xec, 0x43, 0x7a, 0x51, 0x5a, 0x9b, 0x85, 0xbd, 0xa1, 0xb1, 0x5e, 0xac, 0xeb, 0xe4, 0xa3, 0xb2, 0]
def dec3 : Scalar := sc
  [0x7d9d5b0a, 0xe9bc6e73, 0xe16ac2d8, 0xdd13bfdc, 0xfdb68ed4, 0x1fa36b12, 0x29fbe30b, 0xd11ab314, 0x94421341,
    0x840d9bdb, 0x517a43ec, 0xbd859b5a, 0xac5eb1a1, 0x32a3e4eb]
#guard (decode_long []).1 == SCALAR_ZERO.1
#guard (decode_long dec0).1 == dec1.1
#guard (decode_long dec2).1 == dec3.1

-- test_scalar_decode_very_long
def long0 : List Byte := by8
  [0x71, 0xd6, 2, 0xd2, 0x13, 0x94, 0x49, 0x29, 0x75, 0x18, 0xd1, 0xc7, 0x4e, 0x2d, 0x45, 0x44, 0x60, 0x2a, 0xbb,
    0xbb, 0x68, 0xfd, 0xb9, 0x15, 0xd8, 0xea, 0xd9, 0xc, 0xa6, 0xd9, 0x66, 0x72, 0x37, 0x8b, 2, 0xb2, 0xf1, 0xa2,
    0x62, 0x9a, 0xba, 0x56, 0xf, 0xc9, 0xb3, 0x9d, 0x8d, 0x3d, 0xda, 0x2f, 0xe6, 0x78, 0x62, 0x27, 0x61, 0x6e, 0xe9,
    0x36, 0x13, 0xc, 0xcc, 0x34, 5, 0x67, 0xd0, 0xcf, 0x76, 0x90, 0xc5, 0xf6, 0x91, 0xd7, 0x78, 0x82, 0x44, 0xeb,
    0xbe, 0xb3, 0x75, 0xc4, 0x61, 0xee, 0x5e, 0x9c, 0x41, 0xee, 0xdc, 0xa7, 0xbf, 0x3f, 0x91, 0x36, 0x81, 0x30, 0x12,
    0x67, 0x19, 0x68, 0x2b, 0x1c, 0x73, 0x28, 0x38, 0x5c, 0x16, 0x72, 0xe6, 0xb9, 2, 0x6e, 0xe4, 0xcf, 0x56, 0x19]
def long1 : List Byte := by8
  [0x12, 0, 0x7a, 0x28, 0x40, 0x53, 0x6a, 0xd4, 0x89, 0xe0, 0xc, 0x6e, 0xc7, 0xfa, 0x7a, 0xc6, 0xe1, 0x77, 0x8e,
    0x8e, 0x34, 0xb8, 0xd3, 0x5c, 0x61, 0x84, 0x73, 0xcc, 0xb4, 0xf6, 0x38, 0x9c, 0x6c, 0xf3, 0x2f, 0xa4, 0xca, 0x70,
    0xfe, 0x2d, 0x4f, 0xca, 8, 0x2b, 0x38, 0xfd, 0xc7, 0x31, 0xf3, 0x1b, 0x6d, 0x87, 0xf5, 0x15, 0xe6, 0x1b, 0]
#guard (scalarEncode (decode_long long0)).1 == long1

/-! ## src/bignumber.rs -/

-- test_deserialize
def des0 : List Byte := by8
  [0xf5, 0x81, 0x74, 0xd5, 0x7a, 0x33, 0x72, 0x36, 0x3c, 0xd, 0x9f, 0xcf, 0xaa, 0x3d, 0xc1, 0x8b, 0x1e, 0xff, 0x7e,
    0x89, 0xbf, 0x76, 0x78, 0x63, 0x65, 0x80, 0xd1, 0x7d, 0xd8, 0x4a, 0x87, 0x3b, 0x14, 0xb9, 0xc0, 0xe1, 0x68, 0xb,
    0xbd, 0xc8, 0x76, 0x47, 0xf3, 0xc3, 0x82, 0x90, 0x2d, 0x2f, 0x58, 0xd2, 0x75, 0x4b, 0x39, 0xbc, 0xa8, 0x74]
def des1 : BN := bn
  [0x57481f5, 0x72337ad, 0xf0d3c36, 0x3daacf9, 0xf1e8bc1, 0xbf897ef, 0x5637876, 0x7dd1806, 0xb874ad8, 0xc0b9143,
    0xd0b68e1, 0x4776c8b, 0x82c3f3, 0x582f2d9, 0x94b75d2, 0x74a8bc3]
def des2 : List Byte := by8
  [0xff, 0xff, 0xff, 0xff, 0xff, 0xff, 0xff, 0xff, 0xff, 0xff, 0xff, 0xff, 0xff, 0xff, 0xff, 0xff, 0xff, 0xff, 0xff,
    0xff, 0xff, 0xff, 0xff, 0xff, 0xff, 0xff, 0xff, 0xff, 0xfe, 0xff, 0xff, 0xff, 0xff, 0xff, 0xff, 0xff, 0xff, 0xff,
    0xff, 0xff, 0xff, 0xff, 0xff, 0xff, 0xff, 0xff, 0xff, 0xff, 0xff, 0xff, 0xff, 0xff, 0xff, 0xff, 0xff, 0xff]
def des3 : BN := bn
  [0xfffffff, 0xfffffff, 0xfffffff, 0xfffffff, 0xfffffff, 0xfffffff, 0xfffffff, 0xfffffff, 0xffffffe, 0xfffffff,
    0xfffffff, 0xfffffff, 0xfffffff, 0xfffffff, 0xfffffff, 0xfffffff]
#guard isOk (Unused.deserialize (arr 56 (1 :: List.replicate 55 0))) (BIG_ONE, true)
#guard isOk (Unused.deserialize (arr 56 des0)) (des1, true)
#guard isOk (Unused.deserialize (arr 56 des2)) (des3, false)

-- test_strong_reduce (the literals are those of test_deserialize)
#guard strong_reduce des3 == BIG_ZERO
#guard strong_reduce (md des0) == md des0

-- test_subtraction
def subb0 : List Byte := by8
  [0xda, 0, 0, 0, 0, 0, 0, 0, 0, 0, 0, 0, 0, 0, 0, 0, 0, 0, 0, 0, 0, 0, 0, 0, 0, 0, 0, 0, 0, 0, 0, 0, 0, 0, 0, 0, 0,
    0, 0, 0, 0, 0, 0, 0, 0, 0, 0, 0, 0, 0, 0, 0, 0, 0, 0, 0]
def subb1 : List Byte := by8
  [0x83, 0, 0, 0, 0, 0, 0, 0, 0, 0, 0, 0, 0, 0, 0, 0, 0, 0, 0, 0, 0, 0, 0, 0, 0, 0, 0, 0, 0, 0, 0, 0, 0, 0, 0, 0, 0,
    0, 0, 0, 0, 0, 0, 0, 0, 0, 0, 0, 0, 0, 0, 0, 0, 0, 0, 0]
def subb2 : List Byte := by8
  [0x57, 0, 0, 0, 0, 0, 0, 0, 0, 0, 0, 0, 0, 0, 0, 0, 0, 0, 0, 0, 0, 0, 0, 0, 0, 0, 0, 0, 0, 0, 0, 0, 0, 0, 0, 0, 0,
    0, 0, 0, 0, 0, 0, 0, 0, 0, 0, 0, 0, 0, 0, 0, 0, 0, 0, 0]
def subb3 : List Byte := by8
  [0, 0, 0, 0xf1, 0, 0, 0, 0, 0, 0, 0, 0, 0, 0, 0, 0, 0, 0, 0, 0, 0, 0, 0, 0, 0, 0, 0, 0, 0, 0, 0, 0, 0, 0, 0, 0, 0,
    0, 0, 0, 0, 0, 0, 0, 0, 0, 0, 0, 0, 0, 0, 0, 0, 0, 0, 0]
def subb4 : List Byte := by8
  [1, 0, 0, 0, 0, 0, 0, 0, 0, 0, 0, 0, 0, 0, 0, 0, 0, 0, 0, 0, 0, 0, 0, 0, 0, 0, 0, 0, 0, 0, 0, 0, 0, 0, 0, 0, 0, 0,
    0, 0, 0, 0, 0, 0, 0, 0, 0, 0, 0, 0, 0, 0, 0, 0, 0, 0]
def subb5 : List Byte := by8
  [0xff, 0xff, 0xff, 0xf0, 0, 0, 0, 0, 0, 0, 0, 0, 0, 0, 0, 0, 0, 0, 0, 0, 0, 0, 0, 0, 0, 0, 0, 0, 0, 0, 0, 0, 0, 0,
    0, 0, 0, 0, 0, 0, 0, 0, 0, 0, 0, 0, 0, 0, 0, 0, 0, 0, 0, 0, 0, 0]
#guard strong_reduce (sub (md subb0) (md subb1)) == (md subb2)
#guard strong_reduce (sub (md subb3) (md subb4)) == (md subb5)

-- test_addition
def addb0 : List Byte := by8
  [0x57, 0, 0, 0, 0, 0, 0, 0, 0, 0, 0, 0, 0, 0, 0, 0, 0, 0, 0, 0, 0, 0, 0, 0, 0, 0, 0, 0, 0, 0, 0, 0, 0, 0, 0, 0, 0,
    0, 0, 0, 0, 0, 0, 0, 0, 0, 0, 0, 0, 0, 0, 0, 0, 0, 0, 0]
def addb1 : List Byte := by8
  [0x83, 0, 0, 0, 0, 0, 0, 0, 0, 0, 0, 0, 0, 0, 0, 0, 0, 0, 0, 0, 0, 0, 0, 0, 0, 0, 0, 0, 0, 0, 0, 0, 0, 0, 0, 0, 0,
    0, 0, 0, 0, 0, 0, 0, 0, 0, 0, 0, 0, 0, 0, 0, 0, 0, 0, 0]
def addb2 : List Byte := by8
  [0xda, 0, 0, 0, 0, 0, 0, 0, 0, 0, 0, 0, 0, 0, 0, 0, 0, 0, 0, 0, 0, 0, 0, 0, 0, 0, 0, 0, 0, 0, 0, 0, 0, 0, 0, 0, 0,
    0, 0, 0, 0, 0, 0, 0, 0, 0, 0, 0, 0, 0, 0, 0, 0, 0, 0, 0]
def addb3 : List Byte := by8
  [0, 0, 0, 0xf1, 0, 0, 0, 0, 0, 0, 0, 0, 0, 0, 0, 0, 0, 0, 0, 0, 0, 0, 0, 0, 0, 0, 0, 0, 0, 0, 0, 0, 0, 0, 0, 0, 0,
    0, 0, 0, 0, 0, 0, 0, 0, 0, 0, 0, 0, 0, 0, 0, 0, 0, 0, 0]
def addb4 : List Byte := by8
  [1, 0, 0, 0, 0, 0, 0, 0, 0, 0, 0, 0, 0, 0, 0, 0, 0, 0, 0, 0, 0, 0, 0, 0, 0, 0, 0, 0, 0, 0, 0, 0, 0, 0, 0, 0, 0, 0,
    0, 0, 0, 0, 0, 0, 0, 0, 0, 0, 0, 0, 0, 0, 0, 0, 0, 0]
def addb5 : List Byte := by8
  [0xff, 0xff, 0xff, 0xf0, 0, 0, 0, 0, 0, 0, 0, 0, 0, 0, 0, 0, 0, 0, 0, 0, 0, 0, 0, 0, 0, 0, 0, 0, 0, 0, 0, 0, 0, 0,
    0, 0, 0, 0, 0, 0, 0, 0, 0, 0, 0, 0, 0, 0, 0, 0, 0, 0, 0, 0, 0, 0]
#guard add (md addb0) (md addb1) == (md addb2)
#guard add (md addb5) (md addb4) == (md addb3)

-- test_sub_x_bias
def sxb0 : List Byte := by8
  [0xff, 0, 0, 0, 0, 0, 0, 0, 0, 0, 0, 0, 0, 0, 0, 0, 0, 0, 0, 0, 0, 0, 0, 0, 0, 0, 0, 0, 0, 0, 0, 0, 0, 0, 0, 0, 0,
    0, 0, 0, 0, 0, 0, 0, 0, 0, 0, 0, 0, 0, 0, 0, 0, 0, 0, 0]
def sxb1 : List Byte := by8
  [0xff, 0, 0, 0, 0, 0, 0, 0, 0, 0, 0, 0, 0, 0, 0, 0, 0, 0, 0, 0, 0, 0, 0, 0, 0, 0, 0, 0, 0, 0, 0, 0, 0, 0, 0, 0, 0,
    0, 0, 0, 0, 0, 0, 0, 0, 0, 0, 0, 0, 0, 0, 0, 0, 0, 0, 0]
def sxb2 : BN := bn
  [0xfffffff, 0xfffffff, 0xfffffff, 0xfffffff, 0xfffffff, 0xfffffff, 0xfffffff, 0xfffffff, 0xffffffe, 0xfffffff,
    0xfffffff, 0xfffffff, 0xfffffff, 0xfffffff, 0xfffffff, 0xfffffff]
#guard sub_x_bias (md sxb0) (md sxb1) 2 == sxb2

-- test_conditional_swap
def swap0 : List Byte := by8
  [0xe6, 0xf5, 0xb8, 0xae, 0x49, 0xce, 0xf7, 0x79, 0xe5, 0x77, 0xdc, 0x29, 0x82, 0x4e, 0xff, 0x45, 0x3f, 0x1c, 0x41,
    6, 3, 0, 0x88, 0x11, 0x5e, 0xa4, 0x9b, 0x4e, 0xe8, 0x4a, 0x7b, 0x7c, 0xdf, 0xe0, 0x6e, 0xd, 0x62, 0x2f, 0xc5,
    0x5c, 0x7c, 0x55, 0x9a, 0xb1, 0xf6, 0xc3, 0xea, 0x32, 0x57, 0xc0, 0x79, 0x79, 0x80, 0x90, 0x26, 0xde]
def swap1 : List Byte := by8
  [0x19, 0xa, 0x47, 0x51, 0xb6, 0x31, 8, 0x86, 0x1a, 0x88, 0x23, 0xd6, 0x7d, 0xb1, 0, 0xba, 0xc0, 0xe3, 0xbe, 0xf9,
    0xfc, 0xff, 0x77, 0xee, 0xa1, 0x5b, 0x64, 0xb0, 0x17, 0xb5, 0x84, 0x83, 0x20, 0x1f, 0x91, 0xf2, 0x9d, 0xd0, 0x3a,
    0xa3, 0x83, 0xaa, 0x65, 0x4e, 9, 0x3c, 0x15, 0xcd, 0xa8, 0x3f, 0x86, 0x86, 0x7f, 0x6f, 0xd9, 0x21]
#guard conditional_swap (md swap0) (md swap1) 0xffffffff == (md swap1, md swap0)
#guard conditional_swap (md swap1) (md swap0) 0 == (md swap1, md swap0)

-- test_isr
def isr0 : List Byte := by8
  [0x9f, 0x93, 0xed, 0xa, 0x84, 0xde, 0xf0, 0xc7, 0xa0, 0x4b, 0x3f, 3, 0x70, 0xc1, 0x96, 0x3d, 0xc6, 0x94, 0x2d,
    0x93, 0xf3, 0xaa, 0x7e, 0x14, 0x96, 0xfa, 0xec, 0x9c, 0x70, 0xd0, 0x59, 0x3c, 0x5c, 6, 0x5f, 0x24, 0x33, 0xf7,
    0xad, 0x26, 0x6a, 0x3a, 0x45, 0x98, 0x60, 0xf4, 0xaf, 0x4f, 0x1b, 0xff, 0x92, 0x26, 0xea, 0xa0, 0x7e, 0x29]
def isr1 : BN := bn
  [0x1c64f02, 0x839717d, 0x1db170, 0x70ee72f, 0xfd0bf7e, 0x32a677d, 0xbc66f28, 0xb699c4a, 0xdee9dc2, 0x9076e56,
    0x68203a0, 0x4a34062, 0x247b02a, 0x52fdf4, 0x3a34bbe, 0x4027d1]
#guard isr (md isr0) == isr1

-- test_square_n (the literal is that of test_isr)
#guard square_n (md isr0) 5 == square (square (square (square (square (md isr0)))))
#guard square_n (md isr0) 6 == square (square (square (square (square (square (md isr0))))))

-- test_dsa_like_deserialize
def dsad0 : List Byte := by8
  [0xa5, 0xd9, 0xce, 0xa4, 6, 0x89, 0xa4, 0x13, 0x94, 0xf0, 0x69, 0x32, 0xfe, 0xe0, 0xdb, 0x11, 0x7b, 0xe0, 0x75,
    0x78, 0x68, 0x2c, 0x48, 0x44, 0x70, 0x3b, 0xe9, 0xc6, 0x64, 0xde, 0x6c, 0xe0, 0xd6, 0xa5, 0xa3, 0x4e, 0xe7, 0x38,
    0xd9, 0xb3, 0xc, 0x93, 0x75, 0x75, 0x8d, 0xe8, 0x50, 0xde, 6, 0x2c, 0xb9, 0x75, 0x50, 0x7d, 0x24, 0x85, 0]
def dsad1 : BN := bn
  [0x4ced9a5, 0xa48906a, 0x9f09413, 0xe0fe326, 0x7b11db, 0x687875e, 0x44482c, 0xc6e93b7, 0x6cde64, 0xa3a5d6e,
    0x938e74e, 0x930cb3d, 0x88d7575, 0x6de50e, 0x75b92c, 0x85247d5]
#guard dsa_like_deserialize (arr 57 dsad0) == (dsad1, 0xffffffff)

-- test_mul_w (the literal is that of test_deserialize)
def mulw1 : BN := bn
  [2, 0, 0, 0, 0, 0, 0, 0, 0, 0, 0, 0, 0, 0, 0, 0]
#guard isOk (mul_w des1 2) (mul des1 mulw1)

-- test_mul_with_signed_curve_constant
def mwc0 : List Byte := by8
  [2, 0, 0, 0, 0, 0, 0, 0, 0, 0, 0, 0, 0, 0, 0, 0, 0, 0, 0, 0, 0, 0, 0, 0, 0, 0, 0, 0, 0, 0, 0, 0, 0, 0, 0, 0, 0, 0,
    0, 0, 0, 0, 0, 0, 0, 0, 0, 0, 0, 0, 0, 0, 0, 0, 0, 0]
def mwc1 : BN := bn
  [0xffecead, 0xfffffff, 0xfffffff, 0xfffffff, 0xfffffff, 0xfffffff, 0xfffffff, 0xfffffff, 0xffffffe, 0xfffffff,
    0xfffffff, 0xfffffff, 0xfffffff, 0xfffffff, 0xfffffff, 0xfffffff]
#guard isOk (mul_with_signed_curve_constant (md mwc0) EDWARDS_D) mwc1

-- test_decaf_cond_negate
def dcn0 : BN := bn
  [0x9026de, 0xc079798, 0x3ea3257, 0x9ab1f6c, 0x55c7c55, 0xd622fc, 0xcdfe06e, 0xe84a7b7, 0xea49b4e, 0x88115,
    0xc410603, 0xff453f1, 0xc29824e, 0x79e577d, 0xe49cef7, 0xe6f5b8a]
def dcn1 : BN := bn
  [0xf6fd921, 0x3f86867, 0xc15cda8, 0x654e093, 0xaa383aa, 0xf29dd03, 0x3201f91, 0x17b5848, 0x15b64b0, 0xff77eea,
    0x3bef9fc, 0xbac0e, 0x3d67db1, 0x861a882, 0x1b63108, 0x190a475]
#guard decaf_cond_negate dcn0 0xffffffff == dcn1

/-! ## src/karatsuba_32.rs and src/karatsuba_square_32.rs -/

-- test_karatsuba
def kara0 : List Byte := by8
  [0xf5, 0x81, 0x74, 0xd5, 0x7a, 0x33, 0x72, 0x36, 0x3c, 0xd, 0x9f, 0xcf, 0xaa, 0x3d, 0xc1, 0x8b, 0x1e, 0xff, 0x7e,
    0x89, 0xbf, 0x76, 0x78, 0x63, 0x65, 0x80, 0xd1, 0x7d, 0xd8, 0x4a, 0x87, 0x3b, 0x14, 0xb9, 0xc0, 0xe1, 0x68, 0xb,
    0xbd, 0xc8, 0x76, 0x47, 0xf3, 0xc3, 0x82, 0x90, 0x2d, 0x2f, 0x58, 0xd2, 0x75, 0x4b, 0x39, 0xbc, 0xa8, 0x74]
def kara1 : List Byte := by8
  [0x74, 0xa8, 0xbc, 0x39, 0x4b, 0x75, 0xd2, 0x58, 0x2f, 0x2d, 0x90, 0x82, 0xc3, 0xf3, 0x47, 0x76, 0xc8, 0xbd, 0xb,
    0x68, 0xe1, 0xc0, 0xb9, 0x14, 0x3b, 0x87, 0x4a, 0xd8, 0x7d, 0xd1, 0x80, 0x65, 0x63, 0x78, 0x76, 0xbf, 0x89, 0x7e,
    0xff, 0x1e, 0x8b, 0xc1, 0x3d, 0xaa, 0xcf, 0x9f, 0xd, 0x3c, 0x36, 0x72, 0x33, 0x7a, 0xd5, 0x74, 0x81, 0xf5]
def kara2 : List Byte := by8
  [0x11, 0x95, 0x9c, 0x2e, 0x91, 0x78, 0x6f, 0xec, 0xff, 0x37, 0xe5, 0x8e, 0x2b, 0x50, 0x9e, 0xf8, 0xfb, 0x41, 8,
    0xc4, 0xa7, 2, 0x1c, 0xbf, 0x5a, 0x9f, 0x18, 0xa7, 0xec, 0x32, 0x65, 0x7e, 0xed, 0xdc, 0x81, 0x81, 0x80, 0xa8,
    0x4c, 0xdd, 0x95, 0x14, 0xe6, 0x67, 0x26, 0xd3, 0xa1, 0x22, 0xdb, 0xb3, 0x9f, 0x17, 0x7a, 0x85, 0x16, 0x6c]
#guard karatsuba_mul (md kara0) (md kara1) == md kara2

-- test_karatsuba_square (the literal is that of test_karatsuba)
#guard karatsuba_square (md kara0) == karatsuba_mul (md kara0) (md kara0)

/-! ## src/extended_point.rs -/

-- test_double_internal
def dbl0 : Pt := pt
  [0x8354b7a, 0x895b3e8, 0x6ae5175, 0x644b394, 0xb7faf9e, 0xc5237db, 0x13a0c90, 0x8f5bce0, 0x9a3d79b, 0xf17559,
    0xde8f041, 0x73e222f, 0xdc2b7ee, 0x5ac354, 0x766db38, 0x65631fe]
  [0x398885, 0x55c9bed, 0xae443ca, 0xfd70ea4, 0x9e2a7d2, 0x4ac2e9d, 0x678287, 0x294768e, 0xb604cea, 0x7b49317,
    0xdc2a6d9, 0xe44a6fb, 0x9db3965, 0x49d3bf5, 0x3e655fe, 0x3a9c02]
  [0xfd57162, 0xa39f768, 0x3009756, 0x65d735f, 0xd1da282, 0x589ecd7, 0x3196b1, 0xc001dfe, 0x19f1050, 0x152e8d2,
    0xc14ff38, 0xf7a446, 0x28053f6, 0xf8a91e9, 0x5a8d694, 0x9d5ae86]
  [0x4198f2e, 0xd82440f, 0xfce100e, 0xaf4829d, 0xd5c3516, 0x94a0da, 0x78cdb39, 0xe738836, 0x1ec536d, 0x6dfd1e9,
    0xee16173, 0xaddc8c0, 0x797fb1d, 0x59741a3, 0xa7f9c34, 0x88fe0a6]
def dbl1 : Pt := pt
  [0xd8f04c, 0x3e54689, 0xeb4db2b, 0x887ba34, 0xa5b4ebc, 0xf6c0261, 0x3bfa803, 0x408ff02, 0x3b4ef26, 0x465c028,
    0xcd47378, 0x64c55b4, 0x8245850, 0x1912682, 0xdcbf92c, 0x7a7fa30]
  [0xd94d1a6, 0xf7306e8, 0x278b336, 0x4362b7b, 0xfaf02b9, 0x6b01d18, 0x7a597da, 0xbd6add0, 0x47afa98, 0xe64e897,
    0xbbf88e6, 0x1d0a534, 0x4a52b9d, 0xaf374e0, 0x5091d54, 0xfcf1a5]
  [0x42318ce, 0x4aecdae, 0xe8f196b, 0x19d2e3, 0x45d147c, 0x60b153e, 0xadf2c37, 0x419cdd8, 0x6d19046, 0xd18821,
    0x6c7b9c2, 0xc0ffd68, 0xb7e4ca2, 0x6da0d56, 0x952b40f, 0x3008395]
  [0x4643593, 0xe0fdd, 0x13f29f3, 0xbb8992d, 0xa30d344, 0x9151eec, 0xd12bb82, 0x5c7a054, 0x103c2c6, 0x8a61fe2,
    0xaced4bf, 0xf76d481, 0xdb774be, 0x65ef8a8, 0xff47a71, 0xf49f73e]
def dbl2 : Pt := pt
  [1, 0, 0, 0, 0, 0, 0, 0, 0, 0, 0, 0, 0, 0, 0, 0]
  [2, 0, 0, 0, 0, 0, 0, 0, 0, 0, 0, 0, 0, 0, 0, 0]
  [3, 0, 0, 0, 0, 0, 0, 0, 0, 0, 0, 0, 0, 0, 0, 0]
  [4, 0, 0, 0, 0, 0, 0, 0, 0, 0, 0, 0, 0, 0, 0, 0]
def dbl3 : Pt := pt
  [0x3b, 0x10000000, 0xfffffff, 0xfffffff, 0xfffffff, 0xfffffff, 0xfffffff, 0xfffffff, 0xffffffe, 0xfffffff,
    0xfffffff, 0xfffffff, 0xfffffff, 0xfffffff, 0xfffffff, 0xfffffff]
  [0xe, 0, 0, 0, 0, 0, 0, 0, 0xfffffff, 0xfffffff, 0xfffffff, 0xfffffff, 0xfffffff, 0xfffffff, 0xfffffff, 0xfffffff]
  [0x2c, 0x10000000, 0xfffffff, 0xfffffff, 0xfffffff, 0xfffffff, 0xfffffff, 0xfffffff, 0xffffffe, 0xfffffff,
    0xfffffff, 0xfffffff, 0xfffffff, 0xfffffff, 0xfffffff, 0xfffffff]
  [2, 0x10000000, 0xfffffff, 0xfffffff, 0xfffffff, 0xfffffff, 0xfffffff, 0xfffffff, 0xffffffe, 0xfffffff, 0xfffffff,
    0xfffffff, 0xfffffff, 0xfffffff, 0xfffffff, 0xfffffff]
#guard dbl0.double_internal false == dbl1
#guard dbl2.double_internal true == dbl3

-- test_conditional_negate
def cneg0 : List Byte := by8
  [0x4b, 0x8a, 0x63, 0x2c, 0x1f, 0xea, 0xb7, 0x27, 0x69, 0xcd, 0x96, 0xe7, 0xaa, 0xa5, 0x77, 0x86, 0x18, 0x71, 0xb3,
    0x61, 0x39, 0x45, 0xc8, 2, 0xb8, 0x93, 0x77, 0xe8, 0xb8, 0x53, 0x31, 0xec, 0xc0, 0xff, 0xb1, 0xcb, 0x20, 0x16,
    0x9b, 0xfc, 0x9c, 0x27, 0x27, 0x4d, 0x38, 0xb0, 0xd0, 0x1e, 0x87, 0xa1, 0xd5, 0xd8, 0x51, 0x77, 0xb, 0xc8]
def cneg1 : List Byte := by8
  [0x81, 0xa4, 0x5f, 2, 0xf4, 0x10, 0x53, 0xf8, 0xd7, 0xd2, 0xa1, 0xf1, 0x76, 0xa3, 0x40, 0x52, 0x9b, 0x33, 0xb7,
    0xee, 0x4d, 0x3f, 0xa8, 0x4d, 0xe3, 0x84, 0xb7, 0x50, 0xb3, 0x5a, 0x54, 0xc3, 0x15, 0xbf, 0x36, 0xc4, 0x1d, 2,
    0x3a, 0xde, 0x22, 0x64, 0x49, 0x91, 0x6e, 0x66, 0x83, 0x96, 0x58, 0x9e, 0xa2, 0x14, 0x5d, 0xa0, 0x9b, 0x95]
def cneg2 : List Byte := by8
  [0x5f, 0x5a, 0x2b, 6, 0xa2, 0xdb, 0xf7, 0x13, 0x6f, 0x8d, 0xc9, 0x79, 0xfd, 0x54, 0xd6, 0x31, 0xca, 0x7d, 0xe5, 3,
    0x97, 0x25, 0xa, 0x19, 0x6d, 0x3b, 0xe2, 0xa7, 0x21, 0xab, 0x7c, 0xba, 0xa9, 0x2c, 0x54, 0x5d, 0x9b, 0x15, 0xb5,
    0x31, 0x9e, 0x11, 0xb6, 0x4b, 0xc0, 0x31, 0x66, 0x60, 0x49, 0xd8, 0x63, 0x7e, 0x13, 0x83, 0x8b, 0x3b]
#guard TwistedNiels.conditional_negate ⟨md cneg0, md cneg1, md cneg2⟩ 0xffffffff ==
  ⟨md cneg1, md cneg0, neg (md cneg2)⟩

-- test_add_niels_to_extended
def ante0 : Pt := pt
  [0, 0, 0, 0, 0, 0, 0, 0, 0, 0, 0, 0, 0, 0, 0, 0]
  [1, 0, 0, 0, 0, 0, 0, 0, 0, 0, 0, 0, 0, 0, 0, 0]
  [1, 0, 0, 0, 0, 0, 0, 0, 0, 0, 0, 0, 0, 0, 0, 0]
  [0, 0, 0, 0, 0, 0, 0, 0, 0, 0, 0, 0, 0, 0, 0, 0]
def ante1 : TwistedNiels :=
  ⟨bn [0x68d5b74, 0, 0, 0, 0, 0, 0, 0, 0, 0, 0, 0, 0, 0, 0, 0],
  bn [0x68d5b74, 0, 0, 0, 0, 0, 0, 0, 0, 0, 0, 0, 0, 0, 0, 0],
  bn [0x68d5b74, 0, 0, 0, 0, 0, 0, 0, 0, 0, 0, 0, 0, 0, 0, 0]⟩
def ante2 : Pt := pt
  [0xfffffff, 0xfffffff, 0xfffffff, 0xfffffff, 0xfffffff, 0xfffffff, 0xfffffff, 0xfffffff, 0xffffffe, 0xfffffff,
    0xfffffff, 0xfffffff, 0xfffffff, 0xfffffff, 0xfffffff, 0xfffffff]
  [0xd1ab6e7, 0, 0, 0, 0, 0, 0, 0, 0xfffffff, 0xfffffff, 0xfffffff, 0xfffffff, 0xfffffff, 0xfffffff, 0xfffffff,
    0xfffffff]
  [0, 0, 0, 0, 0, 0, 0, 0, 0xfffffff, 0xfffffff, 0xfffffff, 0xfffffff, 0xfffffff, 0xfffffff, 0xfffffff, 0xfffffff]
  [0, 0, 0, 0, 0, 0, 0, 0, 0, 0, 0, 0, 0, 0, 0, 0]
def ante3 : Pt := pt
  [0xd8f04c, 0x3e54689, 0xeb4db2b, 0x887ba34, 0xa5b4ebc, 0xf6c0261, 0x3bfa803, 0x408ff02, 0x3b4ef26, 0x465c028,
    0xcd47378, 0x64c55b4, 0x8245850, 0x1912682, 0xdcbf92c, 0x7a7fa30]
  [0xd94d1a6, 0xf7306e8, 0x278b336, 0x4362b7b, 0xfaf02b9, 0x6b01d18, 0x7a597da, 0xbd6add0, 0x47afa98, 0xe64e897,
    0xbbf88e6, 0x1d0a534, 0x4a52b9d, 0xaf374e0, 0x5091d54, 0xfcf1a5]
  [0x42318ce, 0x4aecdae, 0xe8f196b, 0x19d2e3, 0x45d147c, 0x60b153e, 0xadf2c37, 0x419cdd8, 0x6d19046, 0xd18821,
    0x6c7b9c2, 0xc0ffd68, 0xb7e4ca2, 0x6da0d56, 0x952b40f, 0x3008395]
  [0x4643593, 0xe0fdd, 0x13f29f3, 0xbb8992d, 0xa30d344, 0x9151eec, 0xd12bb82, 0x5c7a054, 0x103c2c6, 0x8a61fe2,
    0xaced4bf, 0xf76d481, 0xdb774be, 0x65ef8a8, 0xff47a71, 0xf49f73e]
def ante4 : TwistedNiels :=
  ⟨bn [0x8fcb20f, 0x4611087, 0x1cc6f32, 0xdf43db2, 0x4516644, 0xffdde9f, 0x91686b9, 0x5199177, 0xfd34473, 0xb72b441,
    0xcb1c72b, 0x8d45684, 0xfc17a5, 0x1518137, 0x7f74d3, 0xa456d13],
  bn [0x9b607dc, 0x1430f14, 0x16715fc, 0xe992ccd, 0xa32a09, 0xa62209b, 0xc26b8e4, 0xb889ced, 0xac109cf, 0x59bf9a3,
    0xb7feac2, 0x6871bb3, 0xd9a0e6b, 0xf4a4d5f, 0xcd69a5, 0xb95db46],
  bn [0x8bda702, 0x3630441, 0x1561558, 0x7bc5686, 0xe30416f, 0xf344bc8, 0x80f59d7, 0xa645370, 0x7d00ace, 0xb4c2007,
    0xb26f8cc, 0xee79620, 0xb5403d, 0xa6a558e, 0x66f3d19, 0x8f1d2c7]⟩
def ante5 : Pt := pt
  [0x662c9a5, 0xe2bc383, 0x9b2fc38, 0x42d545, 0x431bbe8, 0x9e2a364, 0x3b8e92e, 0xdf6d043, 0x7136f20, 0xbde4fe,
    0xca79859, 0xc484320, 0x99507c4, 0xef683e6, 0x9f8221d, 0xb1fdcb8]
  [0xaaf871f, 0x8fcadaf, 0x974aaea, 0x7d73c92, 0xbdaba0c, 0x69d1bf6, 0x906e75c, 0x20e493, 0x7a2e1ec, 0x6e27878,
    0xe9c9d2, 0x8e429f5, 0x26f7c86, 0x420e6c5, 0x304fccb, 0x599fe0e]
  [0x1b26129, 0x71c89cf, 0xb012391, 0x74b87c, 0x331b5fb, 0xa2cbc8d, 0xd1a4729, 0xab451d3, 0x308cad6, 0xe086c2b,
    0x3bd396c, 0xcd2bd87, 0x910f41c, 0x90be75a, 0xa8d7a0e, 0x7ec7ea8]
  [0x8b7d023, 0x5bc6276, 0x3e2082d, 0x9d3eba3, 0xecc2af3, 0x7a4c7be, 0x8ca49b8, 0xebe1040, 0xcf6ddeb, 0x15ec1ff,
    0x10eed61, 0x882e84d, 0x7fefb78, 0xd97e204, 0x2e940a1, 0x537d7c0]
#guard ante0.add_niels_to_extended ante1 true == ante2
#guard ante3.add_niels_to_extended ante4 false == ante5

-- test_precomputed_scalarmul
def psm : Pt := pt
  [0xfffffff, 0xfffffff, 0xfffffff, 0xfffffff, 0xfffffff, 0xfffffff, 0xfffffff, 0xfffffff, 0xffffffe, 0xfffffff,
    0xfffffff, 0xfffffff, 0xfffffff, 0xfffffff, 0xfffffff, 0xfffffff]
  [0xb1ff82e, 0x5e98b74, 0xcecf1, 0x277711a, 0xf9b17c5, 0xc98aadc, 0x5b06211, 0xbc17782, 0x809fef2, 0x8bb648f,
    0x323239f, 0xd37d81d, 0x389402c, 0xcbabc81, 0x87aaae9, 0x1b50b05]
  [0x4e007d1, 0xa16748b, 0xff3130e, 0xd888ee5, 0x64e83a, 0x3675523, 0xa4f9dee, 0x43e887d, 0x7f6010c, 0x7449b70,
    0xcdcdc60, 0x2c827e2, 0xc76bfd3, 0x345437e, 0x7855516, 0xe4af4fa]
  [0xfffffff, 0xfffffff, 0xfffffff, 0xfffffff, 0xfffffff, 0xfffffff, 0xfffffff, 0xfffffff, 0xffffffe, 0xfffffff,
    0xfffffff, 0xfffffff, 0xfffffff, 0xfffffff, 0xfffffff, 0xfffffff]
#guard isOk ((fun p => (p.x, p.t)) <$> precomputed_scalar_mul SCALAR_ZERO) (psm.x, psm.t)

-- test_is_valid_point
def ivp0 : Pt := pt
  [0x34365c8, 0x6b2a874, 0xeb875d7, 0xae4c7a7, 0x785df04, 0x9929351, 0x1fe8c3b, 0xf2a0e5f, 0x111d39c, 0x7ab52ba,
    0x1df4552, 0x1d87566, 0xf297be2, 0x27c090f, 0xa81b155, 0xd1a562b]
  [0xda9708, 0xe7d583e, 0xdbcc099, 0xd2dad89, 0x5a49ce4, 0x1cb4ddc, 0x928d395, 0x98d91d, 0xbff16ce, 0x6f02f9a,
    0xce27cc1, 0xdab5783, 0xb553d94, 0x3251a0c, 0x64d70fb, 0x7fe3a2f]
  [0xd5237cc, 0x319d105, 0x2ab2df5, 0x22e9736, 0xd79742f, 0x688712, 0x12d3a65, 0xef4925e, 0xbd0d260, 0x832b532,
    0x5faef27, 0x1ffe567, 0x161ce73, 0x7bda0f5, 0x35d04f1, 0x930f532]
  [0x1f6cc27, 0x9be7b8a, 0x226da79, 0xf6202f1, 0xe7264dc, 0xd25aeb1, 0x6c81f07, 0x3c32cdc, 0x923c854, 0xcfc9865,
    0x55b2fed, 0x5bdcc90, 0x1a99835, 0xea08056, 0xabbf763, 0x3826c2f]
def ivp1 : Pt := pt
  [0xffffffff, 0xffffffff, 0xffffffff, 0xffffffff, 0xffffffff, 0xffffffff, 0xffffffff, 0xffffffff, 0xffffffff,
    0xffffffff, 0xffffffff, 0xffffffff, 0xffffffff, 0xffffffff, 0xffffffff, 0xffffffff]
  [0xffffffff, 0xffffffff, 0xffffffff, 0xffffffff, 0xffffffff, 0xffffffff, 0xffffffff, 0xffffffff, 0xffffffff,
    0xffffffff, 0xffffffff, 0xffffffff, 0xffffffff, 0xffffffff, 0xffffffff, 0xffffffff]
  [0xffffffff, 0xffffffff, 0xffffffff, 0xffffffff, 0xffffffff, 0xffffffff, 0xffffffff, 0xffffffff, 0xffffffff,
    0xffffffff, 0xffffffff, 0xffffffff, 0xffffffff, 0xffffffff, 0xffffffff, 0xffffffff]
  [0xffffffff, 0xffffffff, 0xffffffff, 0xffffffff, 0xffffffff, 0xffffffff, 0xffffffff, 0xffffffff, 0xffffffff,
    0xffffffff, 0xffffffff, 0xffffffff, 0xffffffff, 0xffffffff, 0xffffffff, 0xffffffff]
#guard isOk ivp0.is_on_curve true
#guard isOk ivp1.is_on_curve false

-- test_eddsa_like_decode
def eld0 : List Byte := by8
  [0xa5, 0xd9, 0xce, 0xa4, 6, 0x89, 0xa4, 0x13, 0x94, 0xf0, 0x69, 0x32, 0xfe, 0xe0, 0xdb, 0x11, 0x7b, 0xe0, 0x75,
    0x78, 0x68, 0x2c, 0x48, 0x44, 0x70, 0x3b, 0xe9, 0xc6, 0x64, 0xde, 0x6c, 0xe0, 0xd6, 0xa5, 0xa3, 0x4e, 0xe7, 0x38,
    0xd9, 0xb3, 0xc, 0x93, 0x75, 0x75, 0x8d, 0xe8, 0x50, 0xde, 6, 0x2c, 0xb9, 0x75, 0x50, 0x7d, 0x24, 0x85, 0]
def eld1 : Pt := pt
  [0xc7e3738, 0xcbdc97c, 0xd8e25f0, 0x3332483, 0x111e7fc, 0xc4b6cc7, 0xf8f792c, 0xbfabfc9, 0x6401561, 0x8bed52,
    0x29a6321, 0x93629d, 0x7cc65ec, 0xa0306c6, 0x9cdac09, 0x1124131]
  [0xc35f413, 0xbea33bb, 0xa35ff5e, 0xdb8b320, 0xdecf793, 0xce8a106, 0xb6ca51d, 0x454dc1c, 0x5424ab, 0xe976ae4,
    0x91a6deb, 0x780e161, 0x384d250, 0xc5041e, 0xbef5512, 0xd39b7a4]
  [0x1bff100, 0x1ba8567, 0x78a886e, 0x1a59234, 0xf7c2f29, 0x507cdc8, 0x3211d38, 0xecf7fb8, 0x8d25fe3, 0x445a223,
    0x39c7188, 0xd6f989c, 0x722cff6, 0xf0beee0, 0x438ebd1, 0xf3114e2]
  [0x59c1192, 0xa24f740, 0x9f8d723, 0xdb5fd8b, 0x8e6159b, 0xb004e2, 0x6f2f030, 0x35c4c38, 0x1387946, 0x355e067,
    0x7d3e614, 0x9d57b9c, 0x3b0c3d7, 0x7002ba2, 0xf4e320f, 0x3eafa71]
#guard match eddsa_like_decode eld0, eld1.point_scalar_mul (halve (halve (small 1))) with
  | .ok (.ok p), .ok e => p == e
  | _, _ => false

/-! ## src/goldilocks.rs -/

-- test_decode_hex
def dhex : List Byte := by8
  [0xa8, 0xea, 0x21, 0x2c, 0xc2, 0x4a, 0xe0, 0xfd, 2, 0x9a, 0x97, 0xb6, 0x4b, 0xe5, 0x40, 0x88, 0x5a, 0xf0, 0xe1,
    0xb7, 0xdc, 0x9f, 0xaf, 0x4a, 0x59, 0x17, 0x42, 0x85, 0xc, 0x43, 0x77, 0xf8, 0x57, 0xae, 0x9a, 0x8f, 0x87, 0xdf,
    0x1d, 0xe9, 0x8e, 0x39, 0x7a, 0x58, 0x67, 0xdd, 0x6f, 0x20, 0x21, 0x1e, 0xf3, 0xf2, 0x34, 0xae, 0x71, 0xbc, 0x56]
#guard gives (hex_to_private_key (ascii "a8ea212cc24ae0fd029a97b64be540885af0e1b7dc9faf4a591742850c4377f857ae9a8f87df1de98e397a5867dd6f20211ef3f234ae71bc56")) "a8ea212cc24ae0fd029a97b64be540885af0e1b7dc9faf4a591742850c4377f857ae9a8f87df1de98e397a5867dd6f20211ef3f234ae71bc56"
#guard isOk (Subtype.val <$> hex_to_private_key (ascii "a8ea212cc24ae0fd029a97b64be540885af0e1b7dc9faf4a591742850c4377f857ae9a8f87df1de98e397a5867dd6f20211ef3f234ae71bc56")) dhex

-- test_private_to_public
#guard gives (private_to_public shake256 (key "a8ea212cc24ae0fd029a97b64be540885af0e1b7dc9faf4a591742850c4377f857ae9a8f87df1de98e397a5867dd6f20211ef3f234ae71bc56")) "b615e57dd4d15c3ed1323725c0ba8b1d7f6e740d08e0e29c6d3ff564c896c0c3dd28a9bb5065e06725c8f9e3f7c2c6bbad4900b7447ecf9880"

-- test_zero_public_and_signature
#guard ed448_verify shake256 (List.replicate 57 0) (List.replicate 114 0) (hx "f092a4af1f2103fe7be067df44370097c444f3bf877783ba56f21cf70ba365a3") matches .ok (.error .InvalidSignatureError)

/-! ## src/lib.rs -/

/-- The string of the tests. -/
def ones : List Byte := ascii "010101010101010101010101010101010101010101010101010101010101010101010101010101010101010101010101010101010101010101"

/-- A deserializer that offers a string. -/
def offers (s : List Byte) : Deserializer Unit := ⟨true, .ok s⟩

-- test_secret_key_serde
#guard isOk (SecretKey.serialize <$> SecretKey.from_str ones) ones
#guard match SecretKey.from_str ones, SecretKey.deserialize (offers ones) with
  | .ok k, .ok (.ok k') => k.key.1 == k'.key.1
  | _, _ => false
-- test_verifying_key_serde
#guard isOk (VerifyingKey.serialize <$> VerifyingKey.from_str ones) ones
#guard match VerifyingKey.from_str ones, VerifyingKey.deserialize (offers ones) with
  | .ok k, .ok (.ok k') => k.key.1 == k'.key.1
  | _, _ => false
-- test_signing_key_serde
#guard isOk (SigningKey.serialize <$> SigningKey.from_str shake256 ones) ones
#guard match SigningKey.from_str shake256 ones, SigningKey.deserialize shake256 (offers ones) with
  | .ok k, .ok (.ok k') => k.secret_key.key.1 == k'.secret_key.key.1 && k.verifying_key.key.1 == k'.verifying_key.key.1
  | _, _ => false
-- test_verifying_key_from_bytes
#guard isOk ((fun k => k.key.1) <$> VerifyingKey.from_bytes (List.replicate 57 1)) (List.replicate 57 1)

end Ed448.Tests
