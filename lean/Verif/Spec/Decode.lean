import Verif.Spec.Curve

/-!
# Decoding of points

`Decodes b A` is RFC 8032, section 5.2.3, without the checks on the range of y and on the sign of x = 0. The other definitions describe, in
plain numbers, the acceptance test of the code, which is not the one of the RFC.
-/

set_option exponentiation.threshold 1000

namespace Ed448

/-- The number in the first 56 bytes. -/
def yNat (b : List (BitVec 8)) : ℕ := leNat (b.take 56)

/-- The sign bit, bit 7 of byte 56. -/
def signBit (b : List (BitVec 8)) : ℕ := (b.getD 56 0).toNat / 128

/-- Bits 0 to 6 of byte 56. -/
def padBits (b : List (BitVec 8)) : ℕ := (b.getD 56 0).toNat % 128

/-- The point `A` has the y coordinate given by the string `b`, and its x coordinate is zero or has the parity given by the sign bit. -/
def Decodes (b : List (BitVec 8)) (A : E) : Prop :=
  A.y = (yNat b : F) ∧ (A.x = 0 ∨ A.x.val % 2 = signBit b)

/-- All but the 28 most significant bits of the representative in [0, p) are zero. -/
def LowZero (a : F) : Prop := a.val % 2 ^ 420 = 0

instance (a : F) : Decidable (LowZero a) := inferInstanceAs (Decidable (_ = _))

/-- `MODULUS`, src/constants32.rs:65-68: what the check in `dsa_like_deserialize` subtracts, digit by digit. -/
def checkWords : List ℕ :=
  [0xffffff, 0xffffffff, 0xffffff, 0xffffffff, 0xffffff, 0xffffffff, 0xffffff, 0xffffffff,
    0xfffffe, 0xffffffff, 0xffffff, 0xffffffff, 0xffffff, 0xffffffff, 0xffffff, 0xffffffff]

/-- The carry after one digit, from the carry before it. -/
def checkStep (carry digit m : ℕ) : ℕ := 4 * ((carry + digit + (2 ^ 32 - m)) % 2 ^ 32 / 256)

/-- The `k` least significant digits in base 2^28. -/
def baseDigits : ℕ → ℕ → List ℕ
  | 0, _ => []
  | k + 1, v => v % 2 ^ 28 :: baseDigits k (v / 2 ^ 28)

/-- The final carry of that check. -/
def checkCarry : List ℕ → List ℕ → ℕ → ℕ
  | d :: ds, m :: ms, c => checkCarry ds ms (checkStep c d m)
  | _, _, c => c

/-- The y coordinate passes the check. -/
def PassesCheck (y : ℕ) : Prop := checkCarry (baseDigits 16 y) checkWords 0 ≠ 0

instance (y : ℕ) : Decidable (PassesCheck y) := inferInstanceAs (Decidable (_ ≠ _))

/-- The candidate for the x coordinate: `(1 - y²) ((1 - y²) (1 - d y²))^((p-3)/4)`. -/
noncomputable def xCand (y : F) : F := (1 - y ^ 2) * ((1 - y ^ 2) * (1 - edD * y ^ 2)) ^ ((p - 3) / 4)

/-- Difference of the two sides of the projective equation of the isogenous curve, for the image of `(x, y)`. -/
def imageDefect (x y : F) : F :=
  ((y ^ 2 - x ^ 2) * (x ^ 2 + y ^ 2)) ^ 2 - (2 * x * y * (2 - x ^ 2 - y ^ 2)) ^ 2 - ((y ^ 2 - x ^ 2) * (2 - x ^ 2 - y ^ 2)) ^ 2
    + (1 - edD) * (2 * x * y * (x ^ 2 + y ^ 2)) ^ 2

/-- The common denominator of the image of `(x, y)`. -/
def imageZ (x y : F) : F := (y ^ 2 - x ^ 2) * (2 - x ^ 2 - y ^ 2)

/-- The strings that the decoder of the code accepts. -/
def Accepted (b : List (BitVec 8)) : Prop :=
  b.length = 57 ∧ padBits b = 0 ∧ PassesCheck (yNat b) ∧ LowZero (imageDefect (xCand (yNat b)) (yNat b)) ∧
    ¬ LowZero (imageZ (xCand (yNat b)) (yNat b))

end Ed448
