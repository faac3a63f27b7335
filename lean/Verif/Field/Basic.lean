import Verif.Field.KaratsubaPoly
import Verif.Spec.Field
import Mathlib.Tactic.LinearCombination
import Mathlib.Tactic.NormNum
import Mathlib.Tactic.Linarith

/-!
# The value of a limb vector and the linear operations
-/

namespace Ed448

/-- Evaluation of the limbs as a polynomial. -/
def BN.ev {R : Type} [CommSemiring R] (t : R) (n : BN) : R :=
  (n.l0.toNat : R) + (n.l1.toNat : R) * t + (n.l2.toNat : R) * t ^ 2 + (n.l3.toNat : R) * t ^ 3 +
  (n.l4.toNat : R) * t ^ 4 + (n.l5.toNat : R) * t ^ 5 + (n.l6.toNat : R) * t ^ 6 +
  (n.l7.toNat : R) * t ^ 7 + (n.l8.toNat : R) * t ^ 8 + (n.l9.toNat : R) * t ^ 9 +
  (n.l10.toNat : R) * t ^ 10 + (n.l11.toNat : R) * t ^ 11 + (n.l12.toNat : R) * t ^ 12 +
  (n.l13.toNat : R) * t ^ 13 + (n.l14.toNat : R) * t ^ 14 + (n.l15.toNat : R) * t ^ 15

/-- The number represented by sixteen 28-bit limbs (limbs may exceed 28 bits). -/
def BN.val (n : BN) : ℕ := n.ev (2 ^ 28)

/-- The field element represented. -/
noncomputable def BN.toF (n : BN) : F := (n.val : F)

/-- All limbs are below `B`. -/
def BN.Lt (n : BN) (B : ℕ) : Prop :=
  n.l0.toNat < B ∧ n.l1.toNat < B ∧ n.l2.toNat < B ∧ n.l3.toNat < B ∧ n.l4.toNat < B ∧
  n.l5.toNat < B ∧ n.l6.toNat < B ∧ n.l7.toNat < B ∧ n.l8.toNat < B ∧ n.l9.toNat < B ∧
  n.l10.toNat < B ∧ n.l11.toNat < B ∧ n.l12.toNat < B ∧ n.l13.toNat < B ∧ n.l14.toNat < B ∧
  n.l15.toNat < B

/-- Limb bound of every field element that the code stores: the result of `mul`, `add`, `sub`, ... -/
abbrev RB : ℕ := 2 ^ 28 + 2 ^ 11

/-- The limbs are almost reduced. -/
abbrev BN.Red (n : BN) : Prop := n.Lt RB

/-- Limb bound for the operands of `mul`: the sum of two almost reduced limbs. -/
abbrev MB : ℕ := 2 ^ 29 + 2 ^ 12

theorem BN.Lt.mono {n : BN} {B C : ℕ} (h : n.Lt B) (hBC : B ≤ C) : n.Lt C := by
  unfold BN.Lt at *; omega

set_option exponentiation.threshold 1000 in
theorem p_eq : p + 2 ^ 224 + 1 = 2 ^ 448 := by
  unfold p; norm_num

theorem pow448 : (2 : F) ^ 448 = 2 ^ 224 + 1 := by
  have h : ((p + 2 ^ 224 + 1 : ℕ) : F) = ((2 ^ 448 : ℕ) : F) := by rw [p_eq]
  rw [Nat.cast_add, Nat.cast_add, ZMod.natCast_self, zero_add, Nat.cast_pow, Nat.cast_pow,
    Nat.cast_one, Nat.cast_two] at h
  exact h.symm

theorem t16 : ((2 : F) ^ 28) ^ 16 = ((2 : F) ^ 28) ^ 8 + 1 := by
  rw [← pow_mul, ← pow_mul]
  exact pow448

theorem BN.toF_eq (n : BN) : n.toF = n.ev (2 ^ 28 : F) := by
  simp only [BN.toF, BN.val, BN.ev, Nat.cast_add, Nat.cast_mul, Nat.cast_pow, Nat.cast_ofNat, Nat.cast_id]

@[simp] theorem toF_zero : BIG_ZERO.toF = 0 := by simp [BN.toF_eq, BN.ev, BIG_ZERO]
@[simp] theorem toF_one : BIG_ONE.toF = 1 := by simp [BN.toF_eq, BN.ev, BIG_ONE]

theorem red_zero : BIG_ZERO.Red := by simp [BN.Lt, BIG_ZERO]
theorem red_one : BIG_ONE.Red := by simp [BN.Lt, BIG_ONE, RB]

theorem and_mask (x : W32) : (x &&& RADIX_MASK).toNat = x.toNat % 2 ^ 28 := by
  rw [BitVec.toNat_and, show (RADIX_MASK).toNat = 2 ^ 28 - 1 from rfl, Nat.and_two_pow_sub_one_eq_mod]

theorem shr28 (x : W32) : (x >>> 28).toNat = x.toNat / 2 ^ 28 := by
  rw [BitVec.toNat_ushiftRight, Nat.shiftRight_eq_div_pow]

theorem add_toNat (x y : W32) (h : x.toNat + y.toNat < 2 ^ 32) :
    (x + y).toNat = x.toNat + y.toNat := by
  rw [BitVec.toNat_add, Nat.mod_eq_of_lt h]

theorem mask_add (x y : W32) :
    ((x &&& RADIX_MASK) + (y >>> 28)).toNat = x.toNat % 2 ^ 28 + y.toNat / 2 ^ 28 := by
  rw [add_toNat _ _ (by rw [and_mask, shr28]; have := x.isLt; have := y.isLt; omega), and_mask, shr28]

theorem tmp_toNat (x : W32) : (lo32 (u64 x >>> 28)).toNat = x.toNat / 2 ^ 28 := by
  simp only [lo32, u64, BitVec.toNat_setWidth, BitVec.toNat_ushiftRight, Nat.shiftRight_eq_div_pow]
  have := x.isLt
  omega

theorem divmod (R : Type) [CommSemiring R] (x k : ℕ) : (x : R) = (k : R) * (x / k : ℕ) + (x % k : ℕ) := by
  have := Nat.div_add_mod x k
  rw [← Nat.cast_mul, ← Nat.cast_add, this]

/-- `weak_reduce` keeps the field element and leaves limbs of at most 28 bits plus a carry. -/
theorem weak_reduce_spec (n : BN) (h : n.l8.toNat < 2 ^ 32 - 16) :
    (weak_reduce n).toF = n.toF ∧ (weak_reduce n).Lt (2 ^ 28 + 16) := by
  have h8 : (n.l8 + lo32 (u64 n.l15 >>> 28)).toNat = n.l8.toNat + n.l15.toNat / 2 ^ 28 := by
    have := n.l15.isLt
    rw [add_toNat _ _ (by rw [tmp_toNat]; omega), tmp_toNat]
  have h0 : ((n.l0 &&& RADIX_MASK) + lo32 (u64 n.l15 >>> 28)).toNat =
      n.l0.toNat % 2 ^ 28 + n.l15.toNat / 2 ^ 28 := by
    have := n.l15.isLt
    rw [add_toNat _ _ (by rw [tmp_toNat, and_mask]; omega), tmp_toNat, and_mask]
  constructor
  · simp only [BN.toF_eq, BN.ev, weak_reduce, mask_add, h0, h8]
    have ht := t16
    have e8 := divmod F (n.l8.toNat + n.l15.toNat / 2 ^ 28) (2 ^ 28)
    have e0 := divmod F n.l0.toNat (2 ^ 28)
    have e1 := divmod F n.l1.toNat (2 ^ 28)
    have e2 := divmod F n.l2.toNat (2 ^ 28)
    have e3 := divmod F n.l3.toNat (2 ^ 28)
    have e4 := divmod F n.l4.toNat (2 ^ 28)
    have e5 := divmod F n.l5.toNat (2 ^ 28)
    have e6 := divmod F n.l6.toNat (2 ^ 28)
    have e7 := divmod F n.l7.toNat (2 ^ 28)
    have e9 := divmod F n.l9.toNat (2 ^ 28)
    have e10 := divmod F n.l10.toNat (2 ^ 28)
    have e11 := divmod F n.l11.toNat (2 ^ 28)
    have e12 := divmod F n.l12.toNat (2 ^ 28)
    have e13 := divmod F n.l13.toNat (2 ^ 28)
    have e14 := divmod F n.l14.toNat (2 ^ 28)
    have e15 := divmod F n.l15.toNat (2 ^ 28)
    simp only [Nat.cast_add, Nat.cast_pow, Nat.cast_ofNat] at *
    generalize (2 : F) ^ 28 = t at *
    linear_combination (-1) * e0 - t * e1 - t^2 * e2 - t^3 * e3 - t^4 * e4 - t^5 * e5 - t^6 * e6 -
      t^7 * e7 - t^8 * e8 - t^9 * e9 - t^10 * e10 - t^11 * e11 - t^12 * e12 - t^13 * e13 -
      t^14 * e14 - t^15 * e15 - ((n.l15.toNat / 2 ^ 28 : ℕ) : F) * ht
  · simp only [BN.Lt, weak_reduce, mask_add, h0, h8]
    have b : ∀ x : W32, x.toNat / 2 ^ 28 < 16 := fun x => by have := x.isLt; omega
    have h15 := b n.l15
    refine ⟨?_, ?_, ?_, ?_, ?_, ?_, ?_, ?_, ?_, ?_, ?_, ?_, ?_, ?_, ?_, ?_⟩ <;> omega

end Ed448
