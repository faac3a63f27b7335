/-!
# Hexadecimal strings
-/

namespace Ed448

/-- The ASCII character with code `c` is a hexadecimal digit, of either case, with the value `v`. -/
def IsDigit (c : BitVec 8) (v : Nat) : Prop :=
  (v < 10 ∧ c.toNat = '0'.toNat + v) ∨ (10 ≤ v ∧ v < 16 ∧ (c.toNat = 'a'.toNat + (v - 10) ∨ c.toNat = 'A'.toNat + (v - 10)))

instance (c : BitVec 8) (v : Nat) : Decidable (IsDigit c v) := inferInstanceAs (Decidable (_ ∨ _))

/-- The string `s` (first argument) spells the bytes `b` with two digits each, the more significant one first. -/
inductive HexOf : List (BitVec 8) → List (BitVec 8) → Prop
  | nil : HexOf [] []
  | cons {c c' b : BitVec 8} {s bs : List (BitVec 8)} : IsDigit c (b.toNat / 16) → IsDigit c' (b.toNat % 16) → HexOf s bs →
      HexOf (c :: c' :: s) (b :: bs)

end Ed448
