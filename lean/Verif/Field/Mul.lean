import Verif.Field.Basic

/-!
# Multiplication

Generated by tools/gen_mul.py.
-/

namespace Ed448

theorem acc_toNat (z : W64) (m : ℕ) (h : z.toNat + m < 2 ^ 64) :
    (z + (m : W64)).toNat = z.toNat + m := by
  rw [BitVec.toNat_add, BitVec.natCast_eq_ofNat, BitVec.toNat_ofNat,
    Nat.mod_eq_of_lt (a := m) (by omega), Nat.mod_eq_of_lt h]

theorem acc0_toNat (m : ℕ) (h : m < 2 ^ 64) : ((m : ℕ) : W64).toNat = m := by
  rw [BitVec.natCast_eq_ofNat, BitVec.toNat_ofNat, Nat.mod_eq_of_lt h]

theorem shr28_64 (z : W64) : (z >>> 28).toNat = z.toNat / 2 ^ 28 := by
  rw [BitVec.toNat_ushiftRight, Nat.shiftRight_eq_div_pow]

theorem lowLimb_toNat (z : W64) : (lowLimb z).toNat = z.toNat % 2 ^ 28 := by
  unfold lowLimb
  rw [show (0xfffffff : W32) = RADIX_MASK from rfl, and_mask]
  simp only [lo32, BitVec.toNat_setWidth]
  omega

theorem mulLo0_le (a b : BN) (ha : a.Lt MB) (hb : b.Lt MB) : mulLo0 a b ≤ 23 * (MB * MB) := by
  obtain ⟨ha0, ha1, ha2, ha3, ha4, ha5, ha6, ha7, ha8, ha9, ha10, ha11, ha12, ha13, ha14, ha15⟩ := ha
  obtain ⟨hb0, hb1, hb2, hb3, hb4, hb5, hb6, hb7, hb8, hb9, hb10, hb11, hb12, hb13, hb14, hb15⟩ := hb
  have h0_0 := Nat.mul_le_mul ha0.le hb0.le
  have h8_8 := Nat.mul_le_mul ha8.le hb8.le
  have h1_15 := Nat.mul_le_mul ha1.le hb15.le
  have h9_7 := Nat.mul_le_mul ha9.le hb7.le
  have h9_15 := Nat.mul_le_mul ha9.le hb15.le
  have h2_14 := Nat.mul_le_mul ha2.le hb14.le
  have h10_6 := Nat.mul_le_mul ha10.le hb6.le
  have h10_14 := Nat.mul_le_mul ha10.le hb14.le
  have h3_13 := Nat.mul_le_mul ha3.le hb13.le
  have h11_5 := Nat.mul_le_mul ha11.le hb5.le
  have h11_13 := Nat.mul_le_mul ha11.le hb13.le
  have h4_12 := Nat.mul_le_mul ha4.le hb12.le
  have h12_4 := Nat.mul_le_mul ha12.le hb4.le
  have h12_12 := Nat.mul_le_mul ha12.le hb12.le
  have h5_11 := Nat.mul_le_mul ha5.le hb11.le
  have h13_3 := Nat.mul_le_mul ha13.le hb3.le
  have h13_11 := Nat.mul_le_mul ha13.le hb11.le
  have h6_10 := Nat.mul_le_mul ha6.le hb10.le
  have h14_2 := Nat.mul_le_mul ha14.le hb2.le
  have h14_10 := Nat.mul_le_mul ha14.le hb10.le
  have h7_9 := Nat.mul_le_mul ha7.le hb9.le
  have h15_1 := Nat.mul_le_mul ha15.le hb1.le
  have h15_9 := Nat.mul_le_mul ha15.le hb9.le
  unfold mulLo0
  linarith

theorem mulHi0_le (a b : BN) (ha : a.Lt MB) (hb : b.Lt MB) : mulHi0 a b ≤ 38 * (MB * MB) := by
  obtain ⟨ha0, ha1, ha2, ha3, ha4, ha5, ha6, ha7, ha8, ha9, ha10, ha11, ha12, ha13, ha14, ha15⟩ := ha
  obtain ⟨hb0, hb1, hb2, hb3, hb4, hb5, hb6, hb7, hb8, hb9, hb10, hb11, hb12, hb13, hb14, hb15⟩ := hb
  have h0_8 := Nat.mul_le_mul ha0.le hb8.le
  have h8_0 := Nat.mul_le_mul ha8.le hb0.le
  have h8_8 := Nat.mul_le_mul ha8.le hb8.le
  have h1_7 := Nat.mul_le_mul ha1.le hb7.le
  have h9_15 := Nat.mul_le_mul ha9.le hb15.le
  have h1_15 := Nat.mul_le_mul ha1.le hb15.le
  have h9_7 := Nat.mul_le_mul ha9.le hb7.le
  have h2_6 := Nat.mul_le_mul ha2.le hb6.le
  have h10_14 := Nat.mul_le_mul ha10.le hb14.le
  have h2_14 := Nat.mul_le_mul ha2.le hb14.le
  have h10_6 := Nat.mul_le_mul ha10.le hb6.le
  have h3_5 := Nat.mul_le_mul ha3.le hb5.le
  have h11_13 := Nat.mul_le_mul ha11.le hb13.le
  have h3_13 := Nat.mul_le_mul ha3.le hb13.le
  have h11_5 := Nat.mul_le_mul ha11.le hb5.le
  have h4_4 := Nat.mul_le_mul ha4.le hb4.le
  have h12_12 := Nat.mul_le_mul ha12.le hb12.le
  have h4_12 := Nat.mul_le_mul ha4.le hb12.le
  have h12_4 := Nat.mul_le_mul ha12.le hb4.le
  have h5_3 := Nat.mul_le_mul ha5.le hb3.le
  have h13_11 := Nat.mul_le_mul ha13.le hb11.le
  have h5_11 := Nat.mul_le_mul ha5.le hb11.le
  have h13_3 := Nat.mul_le_mul ha13.le hb3.le
  have h6_2 := Nat.mul_le_mul ha6.le hb2.le
  have h14_10 := Nat.mul_le_mul ha14.le hb10.le
  have h6_10 := Nat.mul_le_mul ha6.le hb10.le
  have h14_2 := Nat.mul_le_mul ha14.le hb2.le
  have h7_1 := Nat.mul_le_mul ha7.le hb1.le
  have h15_9 := Nat.mul_le_mul ha15.le hb9.le
  have h7_9 := Nat.mul_le_mul ha7.le hb9.le
  have h15_1 := Nat.mul_le_mul ha15.le hb1.le
  unfold mulHi0
  linarith

theorem mulLo1_le (a b : BN) (ha : a.Lt MB) (hb : b.Lt MB) : mulLo1 a b ≤ 22 * (MB * MB) := by
  obtain ⟨ha0, ha1, ha2, ha3, ha4, ha5, ha6, ha7, ha8, ha9, ha10, ha11, ha12, ha13, ha14, ha15⟩ := ha
  obtain ⟨hb0, hb1, hb2, hb3, hb4, hb5, hb6, hb7, hb8, hb9, hb10, hb11, hb12, hb13, hb14, hb15⟩ := hb
  have h0_1 := Nat.mul_le_mul ha0.le hb1.le
  have h8_9 := Nat.mul_le_mul ha8.le hb9.le
  have h1_0 := Nat.mul_le_mul ha1.le hb0.le
  have h9_8 := Nat.mul_le_mul ha9.le hb8.le
  have h2_15 := Nat.mul_le_mul ha2.le hb15.le
  have h10_7 := Nat.mul_le_mul ha10.le hb7.le
  have h10_15 := Nat.mul_le_mul ha10.le hb15.le
  have h3_14 := Nat.mul_le_mul ha3.le hb14.le
  have h11_6 := Nat.mul_le_mul ha11.le hb6.le
  have h11_14 := Nat.mul_le_mul ha11.le hb14.le
  have h4_13 := Nat.mul_le_mul ha4.le hb13.le
  have h12_5 := Nat.mul_le_mul ha12.le hb5.le
  have h12_13 := Nat.mul_le_mul ha12.le hb13.le
  have h5_12 := Nat.mul_le_mul ha5.le hb12.le
  have h13_4 := Nat.mul_le_mul ha13.le hb4.le
  have h13_12 := Nat.mul_le_mul ha13.le hb12.le
  have h6_11 := Nat.mul_le_mul ha6.le hb11.le
  have h14_3 := Nat.mul_le_mul ha14.le hb3.le
  have h14_11 := Nat.mul_le_mul ha14.le hb11.le
  have h7_10 := Nat.mul_le_mul ha7.le hb10.le
  have h15_2 := Nat.mul_le_mul ha15.le hb2.le
  have h15_10 := Nat.mul_le_mul ha15.le hb10.le
  unfold mulLo1
  linarith

theorem mulHi1_le (a b : BN) (ha : a.Lt MB) (hb : b.Lt MB) : mulHi1 a b ≤ 36 * (MB * MB) := by
  obtain ⟨ha0, ha1, ha2, ha3, ha4, ha5, ha6, ha7, ha8, ha9, ha10, ha11, ha12, ha13, ha14, ha15⟩ := ha
  obtain ⟨hb0, hb1, hb2, hb3, hb4, hb5, hb6, hb7, hb8, hb9, hb10, hb11, hb12, hb13, hb14, hb15⟩ := hb
  have h0_9 := Nat.mul_le_mul ha0.le hb9.le
  have h8_1 := Nat.mul_le_mul ha8.le hb1.le
  have h8_9 := Nat.mul_le_mul ha8.le hb9.le
  have h1_8 := Nat.mul_le_mul ha1.le hb8.le
  have h9_0 := Nat.mul_le_mul ha9.le hb0.le
  have h9_8 := Nat.mul_le_mul ha9.le hb8.le
  have h2_7 := Nat.mul_le_mul ha2.le hb7.le
  have h10_15 := Nat.mul_le_mul ha10.le hb15.le
  have h2_15 := Nat.mul_le_mul ha2.le hb15.le
  have h10_7 := Nat.mul_le_mul ha10.le hb7.le
  have h3_6 := Nat.mul_le_mul ha3.le hb6.le
  have h11_14 := Nat.mul_le_mul ha11.le hb14.le
  have h3_14 := Nat.mul_le_mul ha3.le hb14.le
  have h11_6 := Nat.mul_le_mul ha11.le hb6.le
  have h4_5 := Nat.mul_le_mul ha4.le hb5.le
  have h12_13 := Nat.mul_le_mul ha12.le hb13.le
  have h4_13 := Nat.mul_le_mul ha4.le hb13.le
  have h12_5 := Nat.mul_le_mul ha12.le hb5.le
  have h5_4 := Nat.mul_le_mul ha5.le hb4.le
  have h13_12 := Nat.mul_le_mul ha13.le hb12.le
  have h5_12 := Nat.mul_le_mul ha5.le hb12.le
  have h13_4 := Nat.mul_le_mul ha13.le hb4.le
  have h6_3 := Nat.mul_le_mul ha6.le hb3.le
  have h14_11 := Nat.mul_le_mul ha14.le hb11.le
  have h6_11 := Nat.mul_le_mul ha6.le hb11.le
  have h14_3 := Nat.mul_le_mul ha14.le hb3.le
  have h7_2 := Nat.mul_le_mul ha7.le hb2.le
  have h15_10 := Nat.mul_le_mul ha15.le hb10.le
  have h7_10 := Nat.mul_le_mul ha7.le hb10.le
  have h15_2 := Nat.mul_le_mul ha15.le hb2.le
  unfold mulHi1
  linarith

theorem mulLo2_le (a b : BN) (ha : a.Lt MB) (hb : b.Lt MB) : mulLo2 a b ≤ 21 * (MB * MB) := by
  obtain ⟨ha0, ha1, ha2, ha3, ha4, ha5, ha6, ha7, ha8, ha9, ha10, ha11, ha12, ha13, ha14, ha15⟩ := ha
  obtain ⟨hb0, hb1, hb2, hb3, hb4, hb5, hb6, hb7, hb8, hb9, hb10, hb11, hb12, hb13, hb14, hb15⟩ := hb
  have h0_2 := Nat.mul_le_mul ha0.le hb2.le
  have h8_10 := Nat.mul_le_mul ha8.le hb10.le
  have h1_1 := Nat.mul_le_mul ha1.le hb1.le
  have h9_9 := Nat.mul_le_mul ha9.le hb9.le
  have h2_0 := Nat.mul_le_mul ha2.le hb0.le
  have h10_8 := Nat.mul_le_mul ha10.le hb8.le
  have h3_15 := Nat.mul_le_mul ha3.le hb15.le
  have h11_7 := Nat.mul_le_mul ha11.le hb7.le
  have h11_15 := Nat.mul_le_mul ha11.le hb15.le
  have h4_14 := Nat.mul_le_mul ha4.le hb14.le
  have h12_6 := Nat.mul_le_mul ha12.le hb6.le
  have h12_14 := Nat.mul_le_mul ha12.le hb14.le
  have h5_13 := Nat.mul_le_mul ha5.le hb13.le
  have h13_5 := Nat.mul_le_mul ha13.le hb5.le
  have h13_13 := Nat.mul_le_mul ha13.le hb13.le
  have h6_12 := Nat.mul_le_mul ha6.le hb12.le
  have h14_4 := Nat.mul_le_mul ha14.le hb4.le
  have h14_12 := Nat.mul_le_mul ha14.le hb12.le
  have h7_11 := Nat.mul_le_mul ha7.le hb11.le
  have h15_3 := Nat.mul_le_mul ha15.le hb3.le
  have h15_11 := Nat.mul_le_mul ha15.le hb11.le
  unfold mulLo2
  linarith

theorem mulHi2_le (a b : BN) (ha : a.Lt MB) (hb : b.Lt MB) : mulHi2 a b ≤ 34 * (MB * MB) := by
  obtain ⟨ha0, ha1, ha2, ha3, ha4, ha5, ha6, ha7, ha8, ha9, ha10, ha11, ha12, ha13, ha14, ha15⟩ := ha
  obtain ⟨hb0, hb1, hb2, hb3, hb4, hb5, hb6, hb7, hb8, hb9, hb10, hb11, hb12, hb13, hb14, hb15⟩ := hb
  have h0_10 := Nat.mul_le_mul ha0.le hb10.le
  have h8_2 := Nat.mul_le_mul ha8.le hb2.le
  have h8_10 := Nat.mul_le_mul ha8.le hb10.le
  have h1_9 := Nat.mul_le_mul ha1.le hb9.le
  have h9_1 := Nat.mul_le_mul ha9.le hb1.le
  have h9_9 := Nat.mul_le_mul ha9.le hb9.le
  have h2_8 := Nat.mul_le_mul ha2.le hb8.le
  have h10_0 := Nat.mul_le_mul ha10.le hb0.le
  have h10_8 := Nat.mul_le_mul ha10.le hb8.le
  have h3_7 := Nat.mul_le_mul ha3.le hb7.le
  have h11_15 := Nat.mul_le_mul ha11.le hb15.le
  have h3_15 := Nat.mul_le_mul ha3.le hb15.le
  have h11_7 := Nat.mul_le_mul ha11.le hb7.le
  have h4_6 := Nat.mul_le_mul ha4.le hb6.le
  have h12_14 := Nat.mul_le_mul ha12.le hb14.le
  have h4_14 := Nat.mul_le_mul ha4.le hb14.le
  have h12_6 := Nat.mul_le_mul ha12.le hb6.le
  have h5_5 := Nat.mul_le_mul ha5.le hb5.le
  have h13_13 := Nat.mul_le_mul ha13.le hb13.le
  have h5_13 := Nat.mul_le_mul ha5.le hb13.le
  have h13_5 := Nat.mul_le_mul ha13.le hb5.le
  have h6_4 := Nat.mul_le_mul ha6.le hb4.le
  have h14_12 := Nat.mul_le_mul ha14.le hb12.le
  have h6_12 := Nat.mul_le_mul ha6.le hb12.le
  have h14_4 := Nat.mul_le_mul ha14.le hb4.le
  have h7_3 := Nat.mul_le_mul ha7.le hb3.le
  have h15_11 := Nat.mul_le_mul ha15.le hb11.le
  have h7_11 := Nat.mul_le_mul ha7.le hb11.le
  have h15_3 := Nat.mul_le_mul ha15.le hb3.le
  unfold mulHi2
  linarith

theorem mulLo3_le (a b : BN) (ha : a.Lt MB) (hb : b.Lt MB) : mulLo3 a b ≤ 20 * (MB * MB) := by
  obtain ⟨ha0, ha1, ha2, ha3, ha4, ha5, ha6, ha7, ha8, ha9, ha10, ha11, ha12, ha13, ha14, ha15⟩ := ha
  obtain ⟨hb0, hb1, hb2, hb3, hb4, hb5, hb6, hb7, hb8, hb9, hb10, hb11, hb12, hb13, hb14, hb15⟩ := hb
  have h0_3 := Nat.mul_le_mul ha0.le hb3.le
  have h8_11 := Nat.mul_le_mul ha8.le hb11.le
  have h1_2 := Nat.mul_le_mul ha1.le hb2.le
  have h9_10 := Nat.mul_le_mul ha9.le hb10.le
  have h2_1 := Nat.mul_le_mul ha2.le hb1.le
  have h10_9 := Nat.mul_le_mul ha10.le hb9.le
  have h3_0 := Nat.mul_le_mul ha3.le hb0.le
  have h11_8 := Nat.mul_le_mul ha11.le hb8.le
  have h4_15 := Nat.mul_le_mul ha4.le hb15.le
  have h12_7 := Nat.mul_le_mul ha12.le hb7.le
  have h12_15 := Nat.mul_le_mul ha12.le hb15.le
  have h5_14 := Nat.mul_le_mul ha5.le hb14.le
  have h13_6 := Nat.mul_le_mul ha13.le hb6.le
  have h13_14 := Nat.mul_le_mul ha13.le hb14.le
  have h6_13 := Nat.mul_le_mul ha6.le hb13.le
  have h14_5 := Nat.mul_le_mul ha14.le hb5.le
  have h14_13 := Nat.mul_le_mul ha14.le hb13.le
  have h7_12 := Nat.mul_le_mul ha7.le hb12.le
  have h15_4 := Nat.mul_le_mul ha15.le hb4.le
  have h15_12 := Nat.mul_le_mul ha15.le hb12.le
  unfold mulLo3
  linarith

theorem mulHi3_le (a b : BN) (ha : a.Lt MB) (hb : b.Lt MB) : mulHi3 a b ≤ 32 * (MB * MB) := by
  obtain ⟨ha0, ha1, ha2, ha3, ha4, ha5, ha6, ha7, ha8, ha9, ha10, ha11, ha12, ha13, ha14, ha15⟩ := ha
  obtain ⟨hb0, hb1, hb2, hb3, hb4, hb5, hb6, hb7, hb8, hb9, hb10, hb11, hb12, hb13, hb14, hb15⟩ := hb
  have h0_11 := Nat.mul_le_mul ha0.le hb11.le
  have h8_3 := Nat.mul_le_mul ha8.le hb3.le
  have h8_11 := Nat.mul_le_mul ha8.le hb11.le
  have h1_10 := Nat.mul_le_mul ha1.le hb10.le
  have h9_2 := Nat.mul_le_mul ha9.le hb2.le
  have h9_10 := Nat.mul_le_mul ha9.le hb10.le
  have h2_9 := Nat.mul_le_mul ha2.le hb9.le
  have h10_1 := Nat.mul_le_mul ha10.le hb1.le
  have h10_9 := Nat.mul_le_mul ha10.le hb9.le
  have h3_8 := Nat.mul_le_mul ha3.le hb8.le
  have h11_0 := Nat.mul_le_mul ha11.le hb0.le
  have h11_8 := Nat.mul_le_mul ha11.le hb8.le
  have h4_7 := Nat.mul_le_mul ha4.le hb7.le
  have h12_15 := Nat.mul_le_mul ha12.le hb15.le
  have h4_15 := Nat.mul_le_mul ha4.le hb15.le
  have h12_7 := Nat.mul_le_mul ha12.le hb7.le
  have h5_6 := Nat.mul_le_mul ha5.le hb6.le
  have h13_14 := Nat.mul_le_mul ha13.le hb14.le
  have h5_14 := Nat.mul_le_mul ha5.le hb14.le
  have h13_6 := Nat.mul_le_mul ha13.le hb6.le
  have h6_5 := Nat.mul_le_mul ha6.le hb5.le
  have h14_13 := Nat.mul_le_mul ha14.le hb13.le
  have h6_13 := Nat.mul_le_mul ha6.le hb13.le
  have h14_5 := Nat.mul_le_mul ha14.le hb5.le
  have h7_4 := Nat.mul_le_mul ha7.le hb4.le
  have h15_12 := Nat.mul_le_mul ha15.le hb12.le
  have h7_12 := Nat.mul_le_mul ha7.le hb12.le
  have h15_4 := Nat.mul_le_mul ha15.le hb4.le
  unfold mulHi3
  linarith

theorem mulLo4_le (a b : BN) (ha : a.Lt MB) (hb : b.Lt MB) : mulLo4 a b ≤ 19 * (MB * MB) := by
  obtain ⟨ha0, ha1, ha2, ha3, ha4, ha5, ha6, ha7, ha8, ha9, ha10, ha11, ha12, ha13, ha14, ha15⟩ := ha
  obtain ⟨hb0, hb1, hb2, hb3, hb4, hb5, hb6, hb7, hb8, hb9, hb10, hb11, hb12, hb13, hb14, hb15⟩ := hb
  have h0_4 := Nat.mul_le_mul ha0.le hb4.le
  have h8_12 := Nat.mul_le_mul ha8.le hb12.le
  have h1_3 := Nat.mul_le_mul ha1.le hb3.le
  have h9_11 := Nat.mul_le_mul ha9.le hb11.le
  have h2_2 := Nat.mul_le_mul ha2.le hb2.le
  have h10_10 := Nat.mul_le_mul ha10.le hb10.le
  have h3_1 := Nat.mul_le_mul ha3.le hb1.le
  have h11_9 := Nat.mul_le_mul ha11.le hb9.le
  have h4_0 := Nat.mul_le_mul ha4.le hb0.le
  have h12_8 := Nat.mul_le_mul ha12.le hb8.le
  have h5_15 := Nat.mul_le_mul ha5.le hb15.le
  have h13_7 := Nat.mul_le_mul ha13.le hb7.le
  have h13_15 := Nat.mul_le_mul ha13.le hb15.le
  have h6_14 := Nat.mul_le_mul ha6.le hb14.le
  have h14_6 := Nat.mul_le_mul ha14.le hb6.le
  have h14_14 := Nat.mul_le_mul ha14.le hb14.le
  have h7_13 := Nat.mul_le_mul ha7.le hb13.le
  have h15_5 := Nat.mul_le_mul ha15.le hb5.le
  have h15_13 := Nat.mul_le_mul ha15.le hb13.le
  unfold mulLo4
  linarith

theorem mulHi4_le (a b : BN) (ha : a.Lt MB) (hb : b.Lt MB) : mulHi4 a b ≤ 30 * (MB * MB) := by
  obtain ⟨ha0, ha1, ha2, ha3, ha4, ha5, ha6, ha7, ha8, ha9, ha10, ha11, ha12, ha13, ha14, ha15⟩ := ha
  obtain ⟨hb0, hb1, hb2, hb3, hb4, hb5, hb6, hb7, hb8, hb9, hb10, hb11, hb12, hb13, hb14, hb15⟩ := hb
  have h0_12 := Nat.mul_le_mul ha0.le hb12.le
  have h8_4 := Nat.mul_le_mul ha8.le hb4.le
  have h8_12 := Nat.mul_le_mul ha8.le hb12.le
  have h1_11 := Nat.mul_le_mul ha1.le hb11.le
  have h9_3 := Nat.mul_le_mul ha9.le hb3.le
  have h9_11 := Nat.mul_le_mul ha9.le hb11.le
  have h2_10 := Nat.mul_le_mul ha2.le hb10.le
  have h10_2 := Nat.mul_le_mul ha10.le hb2.le
  have h10_10 := Nat.mul_le_mul ha10.le hb10.le
  have h3_9 := Nat.mul_le_mul ha3.le hb9.le
  have h11_1 := Nat.mul_le_mul ha11.le hb1.le
  have h11_9 := Nat.mul_le_mul ha11.le hb9.le
  have h4_8 := Nat.mul_le_mul ha4.le hb8.le
  have h12_0 := Nat.mul_le_mul ha12.le hb0.le
  have h12_8 := Nat.mul_le_mul ha12.le hb8.le
  have h5_7 := Nat.mul_le_mul ha5.le hb7.le
  have h13_15 := Nat.mul_le_mul ha13.le hb15.le
  have h5_15 := Nat.mul_le_mul ha5.le hb15.le
  have h13_7 := Nat.mul_le_mul ha13.le hb7.le
  have h6_6 := Nat.mul_le_mul ha6.le hb6.le
  have h14_14 := Nat.mul_le_mul ha14.le hb14.le
  have h6_14 := Nat.mul_le_mul ha6.le hb14.le
  have h14_6 := Nat.mul_le_mul ha14.le hb6.le
  have h7_5 := Nat.mul_le_mul ha7.le hb5.le
  have h15_13 := Nat.mul_le_mul ha15.le hb13.le
  have h7_13 := Nat.mul_le_mul ha7.le hb13.le
  have h15_5 := Nat.mul_le_mul ha15.le hb5.le
  unfold mulHi4
  linarith

theorem mulLo5_le (a b : BN) (ha : a.Lt MB) (hb : b.Lt MB) : mulLo5 a b ≤ 18 * (MB * MB) := by
  obtain ⟨ha0, ha1, ha2, ha3, ha4, ha5, ha6, ha7, ha8, ha9, ha10, ha11, ha12, ha13, ha14, ha15⟩ := ha
  obtain ⟨hb0, hb1, hb2, hb3, hb4, hb5, hb6, hb7, hb8, hb9, hb10, hb11, hb12, hb13, hb14, hb15⟩ := hb
  have h0_5 := Nat.mul_le_mul ha0.le hb5.le
  have h8_13 := Nat.mul_le_mul ha8.le hb13.le
  have h1_4 := Nat.mul_le_mul ha1.le hb4.le
  have h9_12 := Nat.mul_le_mul ha9.le hb12.le
  have h2_3 := Nat.mul_le_mul ha2.le hb3.le
  have h10_11 := Nat.mul_le_mul ha10.le hb11.le
  have h3_2 := Nat.mul_le_mul ha3.le hb2.le
  have h11_10 := Nat.mul_le_mul ha11.le hb10.le
  have h4_1 := Nat.mul_le_mul ha4.le hb1.le
  have h12_9 := Nat.mul_le_mul ha12.le hb9.le
  have h5_0 := Nat.mul_le_mul ha5.le hb0.le
  have h13_8 := Nat.mul_le_mul ha13.le hb8.le
  have h6_15 := Nat.mul_le_mul ha6.le hb15.le
  have h14_7 := Nat.mul_le_mul ha14.le hb7.le
  have h14_15 := Nat.mul_le_mul ha14.le hb15.le
  have h7_14 := Nat.mul_le_mul ha7.le hb14.le
  have h15_6 := Nat.mul_le_mul ha15.le hb6.le
  have h15_14 := Nat.mul_le_mul ha15.le hb14.le
  unfold mulLo5
  linarith

theorem mulHi5_le (a b : BN) (ha : a.Lt MB) (hb : b.Lt MB) : mulHi5 a b ≤ 28 * (MB * MB) := by
  obtain ⟨ha0, ha1, ha2, ha3, ha4, ha5, ha6, ha7, ha8, ha9, ha10, ha11, ha12, ha13, ha14, ha15⟩ := ha
  obtain ⟨hb0, hb1, hb2, hb3, hb4, hb5, hb6, hb7, hb8, hb9, hb10, hb11, hb12, hb13, hb14, hb15⟩ := hb
  have h0_13 := Nat.mul_le_mul ha0.le hb13.le
  have h8_5 := Nat.mul_le_mul ha8.le hb5.le
  have h8_13 := Nat.mul_le_mul ha8.le hb13.le
  have h1_12 := Nat.mul_le_mul ha1.le hb12.le
  have h9_4 := Nat.mul_le_mul ha9.le hb4.le
  have h9_12 := Nat.mul_le_mul ha9.le hb12.le
  have h2_11 := Nat.mul_le_mul ha2.le hb11.le
  have h10_3 := Nat.mul_le_mul ha10.le hb3.le
  have h10_11 := Nat.mul_le_mul ha10.le hb11.le
  have h3_10 := Nat.mul_le_mul ha3.le hb10.le
  have h11_2 := Nat.mul_le_mul ha11.le hb2.le
  have h11_10 := Nat.mul_le_mul ha11.le hb10.le
  have h4_9 := Nat.mul_le_mul ha4.le hb9.le
  have h12_1 := Nat.mul_le_mul ha12.le hb1.le
  have h12_9 := Nat.mul_le_mul ha12.le hb9.le
  have h5_8 := Nat.mul_le_mul ha5.le hb8.le
  have h13_0 := Nat.mul_le_mul ha13.le hb0.le
  have h13_8 := Nat.mul_le_mul ha13.le hb8.le
  have h6_7 := Nat.mul_le_mul ha6.le hb7.le
  have h14_15 := Nat.mul_le_mul ha14.le hb15.le
  have h6_15 := Nat.mul_le_mul ha6.le hb15.le
  have h14_7 := Nat.mul_le_mul ha14.le hb7.le
  have h7_6 := Nat.mul_le_mul ha7.le hb6.le
  have h15_14 := Nat.mul_le_mul ha15.le hb14.le
  have h7_14 := Nat.mul_le_mul ha7.le hb14.le
  have h15_6 := Nat.mul_le_mul ha15.le hb6.le
  unfold mulHi5
  linarith

theorem mulLo6_le (a b : BN) (ha : a.Lt MB) (hb : b.Lt MB) : mulLo6 a b ≤ 17 * (MB * MB) := by
  obtain ⟨ha0, ha1, ha2, ha3, ha4, ha5, ha6, ha7, ha8, ha9, ha10, ha11, ha12, ha13, ha14, ha15⟩ := ha
  obtain ⟨hb0, hb1, hb2, hb3, hb4, hb5, hb6, hb7, hb8, hb9, hb10, hb11, hb12, hb13, hb14, hb15⟩ := hb
  have h0_6 := Nat.mul_le_mul ha0.le hb6.le
  have h8_14 := Nat.mul_le_mul ha8.le hb14.le
  have h1_5 := Nat.mul_le_mul ha1.le hb5.le
  have h9_13 := Nat.mul_le_mul ha9.le hb13.le
  have h2_4 := Nat.mul_le_mul ha2.le hb4.le
  have h10_12 := Nat.mul_le_mul ha10.le hb12.le
  have h3_3 := Nat.mul_le_mul ha3.le hb3.le
  have h11_11 := Nat.mul_le_mul ha11.le hb11.le
  have h4_2 := Nat.mul_le_mul ha4.le hb2.le
  have h12_10 := Nat.mul_le_mul ha12.le hb10.le
  have h5_1 := Nat.mul_le_mul ha5.le hb1.le
  have h13_9 := Nat.mul_le_mul ha13.le hb9.le
  have h6_0 := Nat.mul_le_mul ha6.le hb0.le
  have h14_8 := Nat.mul_le_mul ha14.le hb8.le
  have h7_15 := Nat.mul_le_mul ha7.le hb15.le
  have h15_7 := Nat.mul_le_mul ha15.le hb7.le
  have h15_15 := Nat.mul_le_mul ha15.le hb15.le
  unfold mulLo6
  linarith

theorem mulHi6_le (a b : BN) (ha : a.Lt MB) (hb : b.Lt MB) : mulHi6 a b ≤ 26 * (MB * MB) := by
  obtain ⟨ha0, ha1, ha2, ha3, ha4, ha5, ha6, ha7, ha8, ha9, ha10, ha11, ha12, ha13, ha14, ha15⟩ := ha
  obtain ⟨hb0, hb1, hb2, hb3, hb4, hb5, hb6, hb7, hb8, hb9, hb10, hb11, hb12, hb13, hb14, hb15⟩ := hb
  have h0_14 := Nat.mul_le_mul ha0.le hb14.le
  have h8_6 := Nat.mul_le_mul ha8.le hb6.le
  have h8_14 := Nat.mul_le_mul ha8.le hb14.le
  have h1_13 := Nat.mul_le_mul ha1.le hb13.le
  have h9_5 := Nat.mul_le_mul ha9.le hb5.le
  have h9_13 := Nat.mul_le_mul ha9.le hb13.le
  have h2_12 := Nat.mul_le_mul ha2.le hb12.le
  have h10_4 := Nat.mul_le_mul ha10.le hb4.le
  have h10_12 := Nat.mul_le_mul ha10.le hb12.le
  have h3_11 := Nat.mul_le_mul ha3.le hb11.le
  have h11_3 := Nat.mul_le_mul ha11.le hb3.le
  have h11_11 := Nat.mul_le_mul ha11.le hb11.le
  have h4_10 := Nat.mul_le_mul ha4.le hb10.le
  have h12_2 := Nat.mul_le_mul ha12.le hb2.le
  have h12_10 := Nat.mul_le_mul ha12.le hb10.le
  have h5_9 := Nat.mul_le_mul ha5.le hb9.le
  have h13_1 := Nat.mul_le_mul ha13.le hb1.le
  have h13_9 := Nat.mul_le_mul ha13.le hb9.le
  have h6_8 := Nat.mul_le_mul ha6.le hb8.le
  have h14_0 := Nat.mul_le_mul ha14.le hb0.le
  have h14_8 := Nat.mul_le_mul ha14.le hb8.le
  have h7_7 := Nat.mul_le_mul ha7.le hb7.le
  have h15_15 := Nat.mul_le_mul ha15.le hb15.le
  have h7_15 := Nat.mul_le_mul ha7.le hb15.le
  have h15_7 := Nat.mul_le_mul ha15.le hb7.le
  unfold mulHi6
  linarith

theorem mulLo7_le (a b : BN) (ha : a.Lt MB) (hb : b.Lt MB) : mulLo7 a b ≤ 16 * (MB * MB) := by
  obtain ⟨ha0, ha1, ha2, ha3, ha4, ha5, ha6, ha7, ha8, ha9, ha10, ha11, ha12, ha13, ha14, ha15⟩ := ha
  obtain ⟨hb0, hb1, hb2, hb3, hb4, hb5, hb6, hb7, hb8, hb9, hb10, hb11, hb12, hb13, hb14, hb15⟩ := hb
  have h0_7 := Nat.mul_le_mul ha0.le hb7.le
  have h8_15 := Nat.mul_le_mul ha8.le hb15.le
  have h1_6 := Nat.mul_le_mul ha1.le hb6.le
  have h9_14 := Nat.mul_le_mul ha9.le hb14.le
  have h2_5 := Nat.mul_le_mul ha2.le hb5.le
  have h10_13 := Nat.mul_le_mul ha10.le hb13.le
  have h3_4 := Nat.mul_le_mul ha3.le hb4.le
  have h11_12 := Nat.mul_le_mul ha11.le hb12.le
  have h4_3 := Nat.mul_le_mul ha4.le hb3.le
  have h12_11 := Nat.mul_le_mul ha12.le hb11.le
  have h5_2 := Nat.mul_le_mul ha5.le hb2.le
  have h13_10 := Nat.mul_le_mul ha13.le hb10.le
  have h6_1 := Nat.mul_le_mul ha6.le hb1.le
  have h14_9 := Nat.mul_le_mul ha14.le hb9.le
  have h7_0 := Nat.mul_le_mul ha7.le hb0.le
  have h15_8 := Nat.mul_le_mul ha15.le hb8.le
  unfold mulLo7
  linarith

theorem mulHi7_le (a b : BN) (ha : a.Lt MB) (hb : b.Lt MB) : mulHi7 a b ≤ 24 * (MB * MB) := by
  obtain ⟨ha0, ha1, ha2, ha3, ha4, ha5, ha6, ha7, ha8, ha9, ha10, ha11, ha12, ha13, ha14, ha15⟩ := ha
  obtain ⟨hb0, hb1, hb2, hb3, hb4, hb5, hb6, hb7, hb8, hb9, hb10, hb11, hb12, hb13, hb14, hb15⟩ := hb
  have h0_15 := Nat.mul_le_mul ha0.le hb15.le
  have h8_7 := Nat.mul_le_mul ha8.le hb7.le
  have h8_15 := Nat.mul_le_mul ha8.le hb15.le
  have h1_14 := Nat.mul_le_mul ha1.le hb14.le
  have h9_6 := Nat.mul_le_mul ha9.le hb6.le
  have h9_14 := Nat.mul_le_mul ha9.le hb14.le
  have h2_13 := Nat.mul_le_mul ha2.le hb13.le
  have h10_5 := Nat.mul_le_mul ha10.le hb5.le
  have h10_13 := Nat.mul_le_mul ha10.le hb13.le
  have h3_12 := Nat.mul_le_mul ha3.le hb12.le
  have h11_4 := Nat.mul_le_mul ha11.le hb4.le
  have h11_12 := Nat.mul_le_mul ha11.le hb12.le
  have h4_11 := Nat.mul_le_mul ha4.le hb11.le
  have h12_3 := Nat.mul_le_mul ha12.le hb3.le
  have h12_11 := Nat.mul_le_mul ha12.le hb11.le
  have h5_10 := Nat.mul_le_mul ha5.le hb10.le
  have h13_2 := Nat.mul_le_mul ha13.le hb2.le
  have h13_10 := Nat.mul_le_mul ha13.le hb10.le
  have h6_9 := Nat.mul_le_mul ha6.le hb9.le
  have h14_1 := Nat.mul_le_mul ha14.le hb1.le
  have h14_9 := Nat.mul_le_mul ha14.le hb9.le
  have h7_8 := Nat.mul_le_mul ha7.le hb8.le
  have h15_0 := Nat.mul_le_mul ha15.le hb0.le
  have h15_8 := Nat.mul_le_mul ha15.le hb8.le
  unfold mulHi7
  linarith

/-- The limb sums are the product modulo `t^16 - t^8 - 1`. -/
theorem mul_poly {R : Type} [CommRing R] (t : R) (ht : t ^ 16 = t ^ 8 + 1) (a b : BN) :
    a.ev t * b.ev t =
      ((mulLo0 a b : R) * t ^ 0 + (mulLo1 a b : R) * t ^ 1 + (mulLo2 a b : R) * t ^ 2 + (mulLo3 a b : R) * t ^ 3 + (mulLo4 a b : R) * t ^ 4 + (mulLo5 a b : R) * t ^ 5 + (mulLo6 a b : R) * t ^ 6 + (mulLo7 a b : R) * t ^ 7) +
      t ^ 8 * ((mulHi0 a b : R) * t ^ 0 + (mulHi1 a b : R) * t ^ 1 + (mulHi2 a b : R) * t ^ 2 + (mulHi3 a b : R) * t ^ 3 + (mulHi4 a b : R) * t ^ 4 + (mulHi5 a b : R) * t ^ 5 + (mulHi6 a b : R) * t ^ 6 + (mulHi7 a b : R) * t ^ 7) := by
  simp only [BN.ev, mulLo0, mulHi0, mulLo1, mulHi1, mulLo2, mulHi2, mulLo3, mulHi3, mulLo4, mulHi4, mulLo5, mulHi5, mulLo6, mulHi6, mulLo7, mulHi7, Nat.cast_add, Nat.cast_mul]
  generalize (a.l0.toNat : R) = a0
  generalize (b.l0.toNat : R) = b0
  generalize (a.l1.toNat : R) = a1
  generalize (b.l1.toNat : R) = b1
  generalize (a.l2.toNat : R) = a2
  generalize (b.l2.toNat : R) = b2
  generalize (a.l3.toNat : R) = a3
  generalize (b.l3.toNat : R) = b3
  generalize (a.l4.toNat : R) = a4
  generalize (b.l4.toNat : R) = b4
  generalize (a.l5.toNat : R) = a5
  generalize (b.l5.toNat : R) = b5
  generalize (a.l6.toNat : R) = a6
  generalize (b.l6.toNat : R) = b6
  generalize (a.l7.toNat : R) = a7
  generalize (b.l7.toNat : R) = b7
  generalize (a.l8.toNat : R) = a8
  generalize (b.l8.toNat : R) = b8
  generalize (a.l9.toNat : R) = a9
  generalize (b.l9.toNat : R) = b9
  generalize (a.l10.toNat : R) = a10
  generalize (b.l10.toNat : R) = b10
  generalize (a.l11.toNat : R) = a11
  generalize (b.l11.toNat : R) = b11
  generalize (a.l12.toNat : R) = a12
  generalize (b.l12.toNat : R) = b12
  generalize (a.l13.toNat : R) = a13
  generalize (b.l13.toNat : R) = b13
  generalize (a.l14.toNat : R) = a14
  generalize (b.l14.toNat : R) = b14
  generalize (a.l15.toNat : R) = a15
  generalize (b.l15.toNat : R) = b15
  linear_combination ((a8 * b8 + (a1 * b15 + a9 * b7) + a9 * b15 * (t ^ 8 + 1) + (a2 * b14 + a10 * b6) + a10 * b14 * (t ^ 8 + 1) + (a3 * b13 + a11 * b5) + a11 * b13 * (t ^ 8 + 1) + (a4 * b12 + a12 * b4) + a12 * b12 * (t ^ 8 + 1) + (a5 * b11 + a13 * b3) + a13 * b11 * (t ^ 8 + 1) + (a6 * b10 + a14 * b2) + a14 * b10 * (t ^ 8 + 1) + (a7 * b9 + a15 * b1) + a15 * b9 * (t ^ 8 + 1)) * t ^ 0 +
      (a8 * b9 + a9 * b8 + (a2 * b15 + a10 * b7) + a10 * b15 * (t ^ 8 + 1) + (a3 * b14 + a11 * b6) + a11 * b14 * (t ^ 8 + 1) + (a4 * b13 + a12 * b5) + a12 * b13 * (t ^ 8 + 1) + (a5 * b12 + a13 * b4) + a13 * b12 * (t ^ 8 + 1) + (a6 * b11 + a14 * b3) + a14 * b11 * (t ^ 8 + 1) + (a7 * b10 + a15 * b2) + a15 * b10 * (t ^ 8 + 1)) * t ^ 1 +
      (a8 * b10 + a9 * b9 + a10 * b8 + (a3 * b15 + a11 * b7) + a11 * b15 * (t ^ 8 + 1) + (a4 * b14 + a12 * b6) + a12 * b14 * (t ^ 8 + 1) + (a5 * b13 + a13 * b5) + a13 * b13 * (t ^ 8 + 1) + (a6 * b12 + a14 * b4) + a14 * b12 * (t ^ 8 + 1) + (a7 * b11 + a15 * b3) + a15 * b11 * (t ^ 8 + 1)) * t ^ 2 +
      (a8 * b11 + a9 * b10 + a10 * b9 + a11 * b8 + (a4 * b15 + a12 * b7) + a12 * b15 * (t ^ 8 + 1) + (a5 * b14 + a13 * b6) + a13 * b14 * (t ^ 8 + 1) + (a6 * b13 + a14 * b5) + a14 * b13 * (t ^ 8 + 1) + (a7 * b12 + a15 * b4) + a15 * b12 * (t ^ 8 + 1)) * t ^ 3 +
      (a8 * b12 + a9 * b11 + a10 * b10 + a11 * b9 + a12 * b8 + (a5 * b15 + a13 * b7) + a13 * b15 * (t ^ 8 + 1) + (a6 * b14 + a14 * b6) + a14 * b14 * (t ^ 8 + 1) + (a7 * b13 + a15 * b5) + a15 * b13 * (t ^ 8 + 1)) * t ^ 4 +
      (a8 * b13 + a9 * b12 + a10 * b11 + a11 * b10 + a12 * b9 + a13 * b8 + (a6 * b15 + a14 * b7) + a14 * b15 * (t ^ 8 + 1) + (a7 * b14 + a15 * b6) + a15 * b14 * (t ^ 8 + 1)) * t ^ 5 +
      (a8 * b14 + a9 * b13 + a10 * b12 + a11 * b11 + a12 * b10 + a13 * b9 + a14 * b8 + (a7 * b15 + a15 * b7) + a15 * b15 * (t ^ 8 + 1)) * t ^ 6 +
      (a8 * b15 + a9 * b14 + a10 * b13 + a11 * b12 + a12 * b11 + a13 * b10 + a14 * b9 + a15 * b8) * t ^ 7) * ht

/-- `mul` multiplies field elements; its result is almost reduced. -/
theorem mul_spec {a b : BN} (ha : a.Lt MB) (hb : b.Lt MB) :
    (mul a b).toF = a.toF * b.toF ∧ (mul a b).Red := by
  have bl0 := mulLo0_le a b ha hb
  have bh0 := mulHi0_le a b ha hb
  have bl1 := mulLo1_le a b ha hb
  have bh1 := mulHi1_le a b ha hb
  have bl2 := mulLo2_le a b ha hb
  have bh2 := mulHi2_le a b ha hb
  have bl3 := mulLo3_le a b ha hb
  have bh3 := mulHi3_le a b ha hb
  have bl4 := mulLo4_le a b ha hb
  have bh4 := mulHi4_le a b ha hb
  have bl5 := mulLo5_le a b ha hb
  have bh5 := mulHi5_le a b ha hb
  have bl6 := mulLo6_le a b ha hb
  have bh6 := mulHi6_le a b ha hb
  have bl7 := mulLo7_le a b ha hb
  have bh7 := mulHi7_le a b ha hb
  have hpoly := mul_poly ((2 : F) ^ 28) t16 a b
  simp only [mul, karatsuba_mul, mulBlock0_eq, mulBlock1_eq, mulBlock2_eq, mulBlock3_eq, mulBlock4_eq,
    mulBlock5_eq, mulBlock6_eq, mulBlock7_eq]
  generalize mulLo0 a b = m0 at *
  generalize mulHi0 a b = w0 at *
  generalize mulLo1 a b = m1 at *
  generalize mulHi1 a b = w1 at *
  generalize mulLo2 a b = m2 at *
  generalize mulHi2 a b = w2 at *
  generalize mulLo3 a b = m3 at *
  generalize mulHi3 a b = w3 at *
  generalize mulLo4 a b = m4 at *
  generalize mulHi4 a b = w4 at *
  generalize mulLo5 a b = m5 at *
  generalize mulHi5 a b = w5 at *
  generalize mulLo6 a b = m6 at *
  generalize mulHi6 a b = w6 at *
  generalize mulLo7 a b = m7 at *
  generalize mulHi7 a b = w7 at *
  simp only [MB] at *
  obtain ⟨r0, hr0⟩ : ∃ z : W64, z = ((m0 : ℕ) : W64) := ⟨_, rfl⟩
  have nr0 : r0.toNat = m0 := by rw [hr0]; exact acc0_toNat _ (by omega)
  rw [← hr0]
  obtain ⟨r1, hr1⟩ : ∃ z : W64, z = r0 >>> 28 + ((m1 : ℕ) : W64) := ⟨_, rfl⟩
  have nr1 : r1.toNat = r0.toNat / 2 ^ 28 + m1 := by
    rw [hr1, acc_toNat _ _ (by rw [shr28_64]; omega), shr28_64]
  rw [← hr1]
  obtain ⟨r2, hr2⟩ : ∃ z : W64, z = r1 >>> 28 + ((m2 : ℕ) : W64) := ⟨_, rfl⟩
  have nr2 : r2.toNat = r1.toNat / 2 ^ 28 + m2 := by
    rw [hr2, acc_toNat _ _ (by rw [shr28_64]; omega), shr28_64]
  rw [← hr2]
  obtain ⟨r3, hr3⟩ : ∃ z : W64, z = r2 >>> 28 + ((m3 : ℕ) : W64) := ⟨_, rfl⟩
  have nr3 : r3.toNat = r2.toNat / 2 ^ 28 + m3 := by
    rw [hr3, acc_toNat _ _ (by rw [shr28_64]; omega), shr28_64]
  rw [← hr3]
  obtain ⟨r4, hr4⟩ : ∃ z : W64, z = r3 >>> 28 + ((m4 : ℕ) : W64) := ⟨_, rfl⟩
  have nr4 : r4.toNat = r3.toNat / 2 ^ 28 + m4 := by
    rw [hr4, acc_toNat _ _ (by rw [shr28_64]; omega), shr28_64]
  rw [← hr4]
  obtain ⟨r5, hr5⟩ : ∃ z : W64, z = r4 >>> 28 + ((m5 : ℕ) : W64) := ⟨_, rfl⟩
  have nr5 : r5.toNat = r4.toNat / 2 ^ 28 + m5 := by
    rw [hr5, acc_toNat _ _ (by rw [shr28_64]; omega), shr28_64]
  rw [← hr5]
  obtain ⟨r6, hr6⟩ : ∃ z : W64, z = r5 >>> 28 + ((m6 : ℕ) : W64) := ⟨_, rfl⟩
  have nr6 : r6.toNat = r5.toNat / 2 ^ 28 + m6 := by
    rw [hr6, acc_toNat _ _ (by rw [shr28_64]; omega), shr28_64]
  rw [← hr6]
  obtain ⟨r7, hr7⟩ : ∃ z : W64, z = r6 >>> 28 + ((m7 : ℕ) : W64) := ⟨_, rfl⟩
  have nr7 : r7.toNat = r6.toNat / 2 ^ 28 + m7 := by
    rw [hr7, acc_toNat _ _ (by rw [shr28_64]; omega), shr28_64]
  rw [← hr7]
  obtain ⟨s0, hs0⟩ : ∃ z : W64, z = ((w0 : ℕ) : W64) := ⟨_, rfl⟩
  have ns0 : s0.toNat = w0 := by rw [hs0]; exact acc0_toNat _ (by omega)
  rw [← hs0]
  obtain ⟨s1, hs1⟩ : ∃ z : W64, z = s0 >>> 28 + ((w1 : ℕ) : W64) := ⟨_, rfl⟩
  have ns1 : s1.toNat = s0.toNat / 2 ^ 28 + w1 := by
    rw [hs1, acc_toNat _ _ (by rw [shr28_64]; omega), shr28_64]
  rw [← hs1]
  obtain ⟨s2, hs2⟩ : ∃ z : W64, z = s1 >>> 28 + ((w2 : ℕ) : W64) := ⟨_, rfl⟩
  have ns2 : s2.toNat = s1.toNat / 2 ^ 28 + w2 := by
    rw [hs2, acc_toNat _ _ (by rw [shr28_64]; omega), shr28_64]
  rw [← hs2]
  obtain ⟨s3, hs3⟩ : ∃ z : W64, z = s2 >>> 28 + ((w3 : ℕ) : W64) := ⟨_, rfl⟩
  have ns3 : s3.toNat = s2.toNat / 2 ^ 28 + w3 := by
    rw [hs3, acc_toNat _ _ (by rw [shr28_64]; omega), shr28_64]
  rw [← hs3]
  obtain ⟨s4, hs4⟩ : ∃ z : W64, z = s3 >>> 28 + ((w4 : ℕ) : W64) := ⟨_, rfl⟩
  have ns4 : s4.toNat = s3.toNat / 2 ^ 28 + w4 := by
    rw [hs4, acc_toNat _ _ (by rw [shr28_64]; omega), shr28_64]
  rw [← hs4]
  obtain ⟨s5, hs5⟩ : ∃ z : W64, z = s4 >>> 28 + ((w5 : ℕ) : W64) := ⟨_, rfl⟩
  have ns5 : s5.toNat = s4.toNat / 2 ^ 28 + w5 := by
    rw [hs5, acc_toNat _ _ (by rw [shr28_64]; omega), shr28_64]
  rw [← hs5]
  obtain ⟨s6, hs6⟩ : ∃ z : W64, z = s5 >>> 28 + ((w6 : ℕ) : W64) := ⟨_, rfl⟩
  have ns6 : s6.toNat = s5.toNat / 2 ^ 28 + w6 := by
    rw [hs6, acc_toNat _ _ (by rw [shr28_64]; omega), shr28_64]
  rw [← hs6]
  obtain ⟨s7, hs7⟩ : ∃ z : W64, z = s6 >>> 28 + ((w7 : ℕ) : W64) := ⟨_, rfl⟩
  have ns7 : s7.toNat = s6.toNat / 2 ^ 28 + w7 := by
    rw [hs7, acc_toNat _ _ (by rw [shr28_64]; omega), shr28_64]
  rw [← hs7]
  obtain ⟨y, hy⟩ : ∃ z : W64, z = r7 >>> 28 + s7 >>> 28 + u64 (lowLimb s0) := ⟨_, rfl⟩
  obtain ⟨x, hx⟩ : ∃ z : W64, z = s7 >>> 28 + u64 (lowLimb r0) := ⟨_, rfl⟩
  have ny : y.toNat = r7.toNat / 2 ^ 28 + s7.toNat / 2 ^ 28 + s0.toNat % 2 ^ 28 := by
    rw [hy, BitVec.toNat_add, BitVec.toNat_add, shr28_64, shr28_64]
    simp only [u64, BitVec.toNat_setWidth, lowLimb_toNat]
    omega
  have nx : x.toNat = s7.toNat / 2 ^ 28 + r0.toNat % 2 ^ 28 := by
    rw [hx, BitVec.toNat_add, shr28_64]
    simp only [u64, BitVec.toNat_setWidth, lowLimb_toNat]
    omega
  rw [← hy, ← hx]
  have l1 : (lowLimb r1 + lo32 (x >>> 28)).toNat = r1.toNat % 2 ^ 28 + x.toNat / 2 ^ 28 := by
    rw [BitVec.toNat_add, lowLimb_toNat]
    simp only [lo32, BitVec.toNat_setWidth, shr28_64]
    omega
  have l9 : (lowLimb s1 + lo32 (y >>> 28)).toNat = s1.toNat % 2 ^ 28 + y.toNat / 2 ^ 28 := by
    rw [BitVec.toNat_add, lowLimb_toNat]
    simp only [lo32, BitVec.toNat_setWidth, shr28_64]
    omega
  constructor
  · simp only [BN.toF_eq]
    rw [hpoly]
    simp only [BN.ev, lowLimb_toNat, l1, l9]
    have ht := t16
    have er0 := divmod F r0.toNat (2 ^ 28)
    have fr0 := congrArg (Nat.cast (R := F)) nr0
    have er1 := divmod F r1.toNat (2 ^ 28)
    have fr1 := congrArg (Nat.cast (R := F)) nr1
    have er2 := divmod F r2.toNat (2 ^ 28)
    have fr2 := congrArg (Nat.cast (R := F)) nr2
    have er3 := divmod F r3.toNat (2 ^ 28)
    have fr3 := congrArg (Nat.cast (R := F)) nr3
    have er4 := divmod F r4.toNat (2 ^ 28)
    have fr4 := congrArg (Nat.cast (R := F)) nr4
    have er5 := divmod F r5.toNat (2 ^ 28)
    have fr5 := congrArg (Nat.cast (R := F)) nr5
    have er6 := divmod F r6.toNat (2 ^ 28)
    have fr6 := congrArg (Nat.cast (R := F)) nr6
    have er7 := divmod F r7.toNat (2 ^ 28)
    have fr7 := congrArg (Nat.cast (R := F)) nr7
    have es0 := divmod F s0.toNat (2 ^ 28)
    have fs0 := congrArg (Nat.cast (R := F)) ns0
    have es1 := divmod F s1.toNat (2 ^ 28)
    have fs1 := congrArg (Nat.cast (R := F)) ns1
    have es2 := divmod F s2.toNat (2 ^ 28)
    have fs2 := congrArg (Nat.cast (R := F)) ns2
    have es3 := divmod F s3.toNat (2 ^ 28)
    have fs3 := congrArg (Nat.cast (R := F)) ns3
    have es4 := divmod F s4.toNat (2 ^ 28)
    have fs4 := congrArg (Nat.cast (R := F)) ns4
    have es5 := divmod F s5.toNat (2 ^ 28)
    have fs5 := congrArg (Nat.cast (R := F)) ns5
    have es6 := divmod F s6.toNat (2 ^ 28)
    have fs6 := congrArg (Nat.cast (R := F)) ns6
    have es7 := divmod F s7.toNat (2 ^ 28)
    have fs7 := congrArg (Nat.cast (R := F)) ns7
    have ex := divmod F x.toNat (2 ^ 28)
    have ey := divmod F y.toNat (2 ^ 28)
    have fx := congrArg (Nat.cast (R := F)) nx
    have fy := congrArg (Nat.cast (R := F)) ny
    simp only [Nat.cast_add, Nat.cast_pow, Nat.cast_ofNat] at *
    generalize (2 : F) ^ 28 = t at *
    linear_combination (-1) * ex - t ^ 8 * ey + fx + t ^ 8 * fy - t ^ 0 * er0 + t ^ 0 * fr0 - t ^ 1 * er1 + t ^ 1 * fr1 - t ^ 2 * er2 + t ^ 2 * fr2 - t ^ 3 * er3 + t ^ 3 * fr3 - t ^ 4 * er4 + t ^ 4 * fr4 - t ^ 5 * er5 + t ^ 5 * fr5 - t ^ 6 * er6 + t ^ 6 * fr6 - t ^ 7 * er7 + t ^ 7 * fr7 - t ^ 8 * es0 + t ^ 8 * fs0 - t ^ 9 * es1 + t ^ 9 * fs1 - t ^ 10 * es2 + t ^ 10 * fs2 - t ^ 11 * es3 + t ^ 11 * fs3 - t ^ 12 * es4 + t ^ 12 * fs4 - t ^ 13 * es5 + t ^ 13 * fs5 - t ^ 14 * es6 + t ^ 14 * fs6 - t ^ 15 * es7 + t ^ 15 * fs7 - ((s7.toNat / 2 ^ 28 : ℕ) : F) * ht
  · simp only [BN.Lt, lowLimb_toNat, l1, l9, RB]
    refine ⟨?_, ?_, ?_, ?_, ?_, ?_, ?_, ?_, ?_, ?_, ?_, ?_, ?_, ?_, ?_, ?_⟩ <;> omega

end Ed448
