import Verif.Spec.Rfc8032

/-!
# Verification by RFC 8032 (sections 5.2.3 and 5.2.7), with all checks and the empty context
-/

namespace Ed448.RFC

/-- Section 5.2.3: the string has 57 bytes and decodes to the point `A`. Step 1: the number without the sign bit is less than p (so that in
particular bits 448 to 454 are zero). Steps 2 to 4: x has the parity given by the sign bit; for x = 0 the sign bit is zero. -/
def DecodesTo (b : List (BitVec 8)) (A : E) : Prop :=
  b.length = 57 ∧ padBits b = 0 ∧ yNat b < p ∧ A.y = (yNat b : F) ∧ A.x.val % 2 = signBit b

/-- Section 5.2.7: `sig` is a valid signature of `m` under the public key `pk`. -/
def Valid (shake : List (BitVec 8) → ℕ → BitVec 8) (pk m sig : List (BitVec 8)) : Prop :=
  sig.length = 114 ∧ ∃ A R : E, DecodesTo pk A ∧ DecodesTo (sig.take 57) R ∧ leNat (sig.drop 57) < q ∧
    Equation (leNat (sig.drop 57)) R A (challenge shake (sig.take 57) pk m)

end Ed448.RFC
