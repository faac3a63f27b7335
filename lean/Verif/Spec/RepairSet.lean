import Verif.Model.RepairSet
import Verif.Spec.Decode
import Verif.Spec.Verify

/-!
# What a verifier should do that compares field elements exactly, for each choice of the other five repairs
-/

namespace Ed448.Repairs

/-- The string `b` stands for the point `A`. With the repairs 2 and 3 this is section 5.2.3 of RFC 8032. -/
def Reads (f : Repairs) (b : List (BitVec 8)) (A : E) : Prop :=
  b.length = 57 ∧ padBits b = 0 ∧ (if f.modulus then yNat b < p else PassesCheck (yNat b)) ∧ Decodes b A ∧
    (f.signOfZero = true → A.x = 0 → signBit b = 0)

/-- The signature is accepted. With all repairs this is section 5.2.7 of RFC 8032. -/
def Accepts (f : Repairs) (shake : List (BitVec 8) → ℕ → BitVec 8) (pk m sig : List (BitVec 8)) : Prop :=
  (if f.sigLength then sig.length = 114 else 114 ≤ sig.length) ∧ ∃ A R : E, f.Reads pk A ∧ f.Reads (sig.take 57) R ∧
    (f.range = true → leNat ((sig.drop 57).take 57) < q) ∧
    RFC.Equation (leNat ((sig.drop 57).take 57)) R A (RFC.challenge shake (sig.take 57) (if f.keyHash then pk else encodePoint ((q + 1) • A)) m)

end Ed448.Repairs
