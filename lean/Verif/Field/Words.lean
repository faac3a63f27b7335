import Verif.Model.Rust
import Mathlib.Data.BitVec
import Mathlib.Tactic.Ring

/-!
# Words as natural numbers
-/

namespace Ed448

theorem u64_eq_cast (x : W32) : u64 x = ((x.toNat : ℕ) : W64) := by
  apply BitVec.eq_of_toNat_eq
  simp [u64, BitVec.toNat_setWidth]

theorem w64_zero_add (x : W64) : @OfNat.ofNat (BitVec 64) 0 BitVec.instOfNat + x = x :=
  BitVec.zero_add x

theorem w64_add_zero (x : W64) : x + @OfNat.ofNat (BitVec 64) 0 BitVec.instOfNat = x :=
  BitVec.add_zero x

theorem shl1_eq (x : W64) : x <<< 1 = 2 * x := by
  apply BitVec.eq_of_toNat_eq
  simp [BitVec.toNat_mul, Nat.shiftLeft_eq, Nat.mul_comm]

end Ed448
