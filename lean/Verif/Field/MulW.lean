import Verif.Field.Linear

/-!
# Multiplication by a small constant

The accumulator steps are written out once for each limb.
-/

namespace Ed448

/-- The literal `0xfffffff` as it is elaborated in the model. -/
local notation "M28" => @OfNat.ofNat (BitVec 64) 268435455 BitVec.instOfNat

theorem mask28_64 (z : W64) : (lo32 (z &&& M28)).toNat = z.toNat % 2 ^ 28 := by
  simp only [lo32, BitVec.toNat_setWidth, BitVec.toNat_and]
  rw [show BitVec.toNat M28 = 2 ^ 28 - 1 from rfl, Nat.and_two_pow_sub_one_eq_mod]
  have := z.isLt
  omega

theorem addU32_ok {a b : W32} (h : a.toNat + b.toNat < 2 ^ 32) : addU32 a b = .ok (a + b) := by
  rw [addU32, if_pos h]

theorem addU64_ok {a b : W64} (h : a.toNat + b.toNat < 2 ^ 64) : addU64 a b = .ok (a + b) := by
  rw [addU64, if_pos h]

/-- `mul_w` multiplies by a constant below 2^20. -/
theorem mul_w_spec {x : BN} (hx : x.Red) {c : ℕ} (hc : c < 2 ^ 20) :
    ∃ r, mul_w x (BitVec.ofNat 64 c) = .ok r ∧ r.toF = (c : F) * x.toF ∧ r.Red := by
  obtain ⟨hx0, hx1, hx2, hx3, hx4, hx5, hx6, hx7, hx8, hx9, hx10, hx11, hx12, hx13, hx14, hx15⟩ := hx
  simp only [RB] at *
  have hwhi : lo32 (BitVec.ofNat 64 c >>> 28) = 0#32 := by
    apply BitVec.eq_of_toNat_eq
    simp only [lo32, BitVec.toNat_setWidth, shr28_64, BitVec.toNat_ofNat, Nat.zero_mod]
    omega
  have hwlo : u64 (lo32 (BitVec.ofNat 64 c &&& M28)) = ((c : ℕ) : W64) := by
    rw [u64_eq_cast, mask28_64, BitVec.toNat_ofNat]
    congr 1
    omega
  have z0 : ∀ y : W32, u64 0#32 * u64 y = 0#64 := fun y => by simp [u64]
  have a0 : ∀ y : W64, y + 0#64 = y := BitVec.add_zero
  have prod : ∀ y : W32, ((c : ℕ) : W64) * u64 y = ((c * y.toNat : ℕ) : W64) := fun y => by
    rw [u64_eq_cast, Nat.cast_mul]
  have hb : ∀ y : W32, y.toNat < 2 ^ 28 + 2 ^ 11 → c * y.toNat ≤ 2 ^ 20 * (2 ^ 28 + 2 ^ 11) :=
    fun y hy => Nat.mul_le_mul hc.le hy.le
  have hadd := addU32_ok (a := x.l15) (b := x.l7) (by omega)
  unfold mul_w
  simp only [hwhi, hwlo, hadd, z0, prod, a0, bind, Except.bind]
  have b0 := hb _ hx0
  have b1 := hb _ hx1
  have b2 := hb _ hx2
  have b3 := hb _ hx3
  have b4 := hb _ hx4
  have b5 := hb _ hx5
  have b6 := hb _ hx6
  have b7 := hb _ hx7
  have b8 := hb _ hx8
  have b9 := hb _ hx9
  have b10 := hb _ hx10
  have b11 := hb _ hx11
  have b12 := hb _ hx12
  have b13 := hb _ hx13
  have b14 := hb _ hx14
  have b15 := hb _ hx15
  have hev : (c : F) * x.toF = ((c * x.l0.toNat : ℕ) : F) * (2 ^ 28) ^ 0 + ((c * x.l1.toNat : ℕ) : F) * (2 ^ 28) ^ 1 + ((c * x.l2.toNat : ℕ) : F) * (2 ^ 28) ^ 2 + ((c * x.l3.toNat : ℕ) : F) * (2 ^ 28) ^ 3 + ((c * x.l4.toNat : ℕ) : F) * (2 ^ 28) ^ 4 + ((c * x.l5.toNat : ℕ) : F) * (2 ^ 28) ^ 5 + ((c * x.l6.toNat : ℕ) : F) * (2 ^ 28) ^ 6 + ((c * x.l7.toNat : ℕ) : F) * (2 ^ 28) ^ 7 + ((c * x.l8.toNat : ℕ) : F) * (2 ^ 28) ^ 8 + ((c * x.l9.toNat : ℕ) : F) * (2 ^ 28) ^ 9 + ((c * x.l10.toNat : ℕ) : F) * (2 ^ 28) ^ 10 + ((c * x.l11.toNat : ℕ) : F) * (2 ^ 28) ^ 11 + ((c * x.l12.toNat : ℕ) : F) * (2 ^ 28) ^ 12 + ((c * x.l13.toNat : ℕ) : F) * (2 ^ 28) ^ 13 + ((c * x.l14.toNat : ℕ) : F) * (2 ^ 28) ^ 14 + ((c * x.l15.toNat : ℕ) : F) * (2 ^ 28) ^ 15 := by
    rw [BN.toF_eq, BN.ev]; simp only [Nat.cast_mul]; ring
  generalize c * x.l0.toNat = m0 at *
  generalize c * x.l1.toNat = m1 at *
  generalize c * x.l2.toNat = m2 at *
  generalize c * x.l3.toNat = m3 at *
  generalize c * x.l4.toNat = m4 at *
  generalize c * x.l5.toNat = m5 at *
  generalize c * x.l6.toNat = m6 at *
  generalize c * x.l7.toNat = m7 at *
  generalize c * x.l8.toNat = m8 at *
  generalize c * x.l9.toNat = m9 at *
  generalize c * x.l10.toNat = m10 at *
  generalize c * x.l11.toNat = m11 at *
  generalize c * x.l12.toNat = m12 at *
  generalize c * x.l13.toNat = m13 at *
  generalize c * x.l14.toNat = m14 at *
  generalize c * x.l15.toNat = m15 at *
  obtain ⟨r0, hr0⟩ : ∃ z : W64, z = ((m0 : ℕ) : W64) := ⟨_, rfl⟩
  have nr0 : r0.toNat = m0 := by rw [hr0]; exact acc0_toNat _ (by omega)
  rw [← hr0]
  obtain ⟨r1, hr1⟩ : ∃ z : W64, z = r0 >>> 28 + ((m1 : ℕ) : W64) := ⟨_, rfl⟩
  have nr1 : r1.toNat = r0.toNat / 2 ^ 28 + m1 := by
    rw [hr1, acc_toNat _ _ (by rw [shr28_64]; omega), shr28_64]
  rw [← hr1]
  obtain ⟨r2, hr2⟩ : ∃ z : W64, z = r1 >>> 28 + ((m2 : ℕ) : W64) := ⟨_, rfl⟩
  have nr2 : r2.toNat = r1.toNat / 2 ^ 28 + m2 := by
    rw [hr2, acc_toNat _ _ (by rw [shr28_64]; omega), shr28_64]
  rw [← hr2]
  obtain ⟨r3, hr3⟩ : ∃ z : W64, z = r2 >>> 28 + ((m3 : ℕ) : W64) := ⟨_, rfl⟩
  have nr3 : r3.toNat = r2.toNat / 2 ^ 28 + m3 := by
    rw [hr3, acc_toNat _ _ (by rw [shr28_64]; omega), shr28_64]
  rw [← hr3]
  obtain ⟨r4, hr4⟩ : ∃ z : W64, z = r3 >>> 28 + ((m4 : ℕ) : W64) := ⟨_, rfl⟩
  have nr4 : r4.toNat = r3.toNat / 2 ^ 28 + m4 := by
    rw [hr4, acc_toNat _ _ (by rw [shr28_64]; omega), shr28_64]
  rw [← hr4]
  obtain ⟨r5, hr5⟩ : ∃ z : W64, z = r4 >>> 28 + ((m5 : ℕ) : W64) := ⟨_, rfl⟩
  have nr5 : r5.toNat = r4.toNat / 2 ^ 28 + m5 := by
    rw [hr5, acc_toNat _ _ (by rw [shr28_64]; omega), shr28_64]
  rw [← hr5]
  obtain ⟨r6, hr6⟩ : ∃ z : W64, z = r5 >>> 28 + ((m6 : ℕ) : W64) := ⟨_, rfl⟩
  have nr6 : r6.toNat = r5.toNat / 2 ^ 28 + m6 := by
    rw [hr6, acc_toNat _ _ (by rw [shr28_64]; omega), shr28_64]
  rw [← hr6]
  obtain ⟨r7, hr7⟩ : ∃ z : W64, z = r6 >>> 28 + ((m7 : ℕ) : W64) := ⟨_, rfl⟩
  have nr7 : r7.toNat = r6.toNat / 2 ^ 28 + m7 := by
    rw [hr7, acc_toNat _ _ (by rw [shr28_64]; omega), shr28_64]
  rw [← hr7]
  obtain ⟨s0, hs0⟩ : ∃ z : W64, z = ((m8 : ℕ) : W64) := ⟨_, rfl⟩
  have ns0 : s0.toNat = m8 := by rw [hs0]; exact acc0_toNat _ (by omega)
  rw [← hs0]
  obtain ⟨s1, hs1⟩ : ∃ z : W64, z = s0 >>> 28 + ((m9 : ℕ) : W64) := ⟨_, rfl⟩
  have ns1 : s1.toNat = s0.toNat / 2 ^ 28 + m9 := by
    rw [hs1, acc_toNat _ _ (by rw [shr28_64]; omega), shr28_64]
  rw [← hs1]
  obtain ⟨s2, hs2⟩ : ∃ z : W64, z = s1 >>> 28 + ((m10 : ℕ) : W64) := ⟨_, rfl⟩
  have ns2 : s2.toNat = s1.toNat / 2 ^ 28 + m10 := by
    rw [hs2, acc_toNat _ _ (by rw [shr28_64]; omega), shr28_64]
  rw [← hs2]
  obtain ⟨s3, hs3⟩ : ∃ z : W64, z = s2 >>> 28 + ((m11 : ℕ) : W64) := ⟨_, rfl⟩
  have ns3 : s3.toNat = s2.toNat / 2 ^ 28 + m11 := by
    rw [hs3, acc_toNat _ _ (by rw [shr28_64]; omega), shr28_64]
  rw [← hs3]
  obtain ⟨s4, hs4⟩ : ∃ z : W64, z = s3 >>> 28 + ((m12 : ℕ) : W64) := ⟨_, rfl⟩
  have ns4 : s4.toNat = s3.toNat / 2 ^ 28 + m12 := by
    rw [hs4, acc_toNat _ _ (by rw [shr28_64]; omega), shr28_64]
  rw [← hs4]
  obtain ⟨s5, hs5⟩ : ∃ z : W64, z = s4 >>> 28 + ((m13 : ℕ) : W64) := ⟨_, rfl⟩
  have ns5 : s5.toNat = s4.toNat / 2 ^ 28 + m13 := by
    rw [hs5, acc_toNat _ _ (by rw [shr28_64]; omega), shr28_64]
  rw [← hs5]
  obtain ⟨s6, hs6⟩ : ∃ z : W64, z = s5 >>> 28 + ((m14 : ℕ) : W64) := ⟨_, rfl⟩
  have ns6 : s6.toNat = s5.toNat / 2 ^ 28 + m14 := by
    rw [hs6, acc_toNat _ _ (by rw [shr28_64]; omega), shr28_64]
  rw [← hs6]
  obtain ⟨s7, hs7⟩ : ∃ z : W64, z = s6 >>> 28 + ((m15 : ℕ) : W64) := ⟨_, rfl⟩
  have ns7 : s7.toNat = s6.toNat / 2 ^ 28 + m15 := by
    rw [hs7, acc_toNat _ _ (by rw [shr28_64]; omega), shr28_64]
  rw [← hs7]
  have g : ∀ z : W64, (u64 (lo32 (z &&& M28))).toNat = z.toNat % 2 ^ 28 := fun z => by
    simp only [u64, BitVec.toNat_setWidth, mask28_64 z]
    omega
  have g' : ∀ z : W64, (lo32 (z &&& M28)).toNat = z.toNat % 2 ^ 28 := mask28_64
  rw [addU64_ok (a := s7 >>> 28) (b := u64 (lo32 (s0 &&& M28)))
    (by rw [shr28_64, g]; omega)]
  obtain ⟨u, hu⟩ : ∃ z : W64, z = s7 >>> 28 + u64 (lo32 (s0 &&& M28)) := ⟨_, rfl⟩
  have nu : u.toNat = s7.toNat / 2 ^ 28 + s0.toNat % 2 ^ 28 := by
    rw [hu, BitVec.toNat_add, shr28_64, g]; omega
  simp only [← hu]
  rw [addU64_ok (a := r7 >>> 28) (b := u) (by rw [shr28_64]; omega)]
  obtain ⟨y, hy⟩ : ∃ z : W64, z = r7 >>> 28 + u := ⟨_, rfl⟩
  have ny : y.toNat = r7.toNat / 2 ^ 28 + u.toNat := by
    rw [hy, BitVec.toNat_add, shr28_64]; omega
  simp only [← hy]
  rw [addU64_ok (a := s7 >>> 28) (b := u64 (lo32 (r0 &&& M28)))
    (by rw [shr28_64, g]; omega)]
  obtain ⟨v, hv⟩ : ∃ z : W64, z = s7 >>> 28 + u64 (lo32 (r0 &&& M28)) := ⟨_, rfl⟩
  have nv : v.toNat = s7.toNat / 2 ^ 28 + r0.toNat % 2 ^ 28 := by
    rw [hv, BitVec.toNat_add, shr28_64, g]; omega
  simp only [← hv]
  refine ⟨_, rfl, ?_⟩
  have l1 : (lo32 (r1 &&& M28) + lo32 (v >>> 28)).toNat = r1.toNat % 2 ^ 28 + v.toNat / 2 ^ 28 := by
    rw [BitVec.toNat_add, g']
    simp only [lo32, BitVec.toNat_setWidth, shr28_64]
    omega
  have l9 : (lo32 (s1 &&& M28) + lo32 (y >>> 28)).toNat = s1.toNat % 2 ^ 28 + y.toNat / 2 ^ 28 := by
    rw [BitVec.toNat_add, g']
    simp only [lo32, BitVec.toNat_setWidth, shr28_64]
    omega
  constructor
  · rw [hev]
    simp only [BN.toF_eq, BN.ev, g', l1, l9]
    have ht := t16
    have er0 := divmod F r0.toNat (2 ^ 28)
    have fr0 := congrArg (Nat.cast (R := F)) nr0
    have er1 := divmod F r1.toNat (2 ^ 28)
    have fr1 := congrArg (Nat.cast (R := F)) nr1
    have er2 := divmod F r2.toNat (2 ^ 28)
    have fr2 := congrArg (Nat.cast (R := F)) nr2
    have er3 := divmod F r3.toNat (2 ^ 28)
    have fr3 := congrArg (Nat.cast (R := F)) nr3
    have er4 := divmod F r4.toNat (2 ^ 28)
    have fr4 := congrArg (Nat.cast (R := F)) nr4
    have er5 := divmod F r5.toNat (2 ^ 28)
    have fr5 := congrArg (Nat.cast (R := F)) nr5
    have er6 := divmod F r6.toNat (2 ^ 28)
    have fr6 := congrArg (Nat.cast (R := F)) nr6
    have er7 := divmod F r7.toNat (2 ^ 28)
    have fr7 := congrArg (Nat.cast (R := F)) nr7
    have es0 := divmod F s0.toNat (2 ^ 28)
    have fs0 := congrArg (Nat.cast (R := F)) ns0
    have es1 := divmod F s1.toNat (2 ^ 28)
    have fs1 := congrArg (Nat.cast (R := F)) ns1
    have es2 := divmod F s2.toNat (2 ^ 28)
    have fs2 := congrArg (Nat.cast (R := F)) ns2
    have es3 := divmod F s3.toNat (2 ^ 28)
    have fs3 := congrArg (Nat.cast (R := F)) ns3
    have es4 := divmod F s4.toNat (2 ^ 28)
    have fs4 := congrArg (Nat.cast (R := F)) ns4
    have es5 := divmod F s5.toNat (2 ^ 28)
    have fs5 := congrArg (Nat.cast (R := F)) ns5
    have es6 := divmod F s6.toNat (2 ^ 28)
    have fs6 := congrArg (Nat.cast (R := F)) ns6
    have es7 := divmod F s7.toNat (2 ^ 28)
    have fs7 := congrArg (Nat.cast (R := F)) ns7
    have ev := divmod F v.toNat (2 ^ 28)
    have ey := divmod F y.toNat (2 ^ 28)
    have fv := congrArg (Nat.cast (R := F)) nv
    have fy := congrArg (Nat.cast (R := F)) ny
    have fu := congrArg (Nat.cast (R := F)) nu
    simp only [Nat.cast_add, Nat.cast_pow, Nat.cast_ofNat] at *
    generalize (2 : F) ^ 28 = t at *
    linear_combination (-1) * ev - t ^ 8 * ey + fv + t ^ 8 * fy + t ^ 8 * fu - t ^ 0 * er0 + t ^ 0 * fr0 - t ^ 1 * er1 + t ^ 1 * fr1 - t ^ 2 * er2 + t ^ 2 * fr2 - t ^ 3 * er3 + t ^ 3 * fr3 - t ^ 4 * er4 + t ^ 4 * fr4 - t ^ 5 * er5 + t ^ 5 * fr5 - t ^ 6 * er6 + t ^ 6 * fr6 - t ^ 7 * er7 + t ^ 7 * fr7 - t ^ 8 * es0 + t ^ 8 * fs0 - t ^ 9 * es1 + t ^ 9 * fs1 - t ^ 10 * es2 + t ^ 10 * fs2 - t ^ 11 * es3 + t ^ 11 * fs3 - t ^ 12 * es4 + t ^ 12 * fs4 - t ^ 13 * es5 + t ^ 13 * fs5 - t ^ 14 * es6 + t ^ 14 * fs6 - t ^ 15 * es7 + t ^ 15 * fs7 - ((s7.toNat / 2 ^ 28 : ℕ) : F) * ht
  · simp only [BN.Lt, g', l1, l9, RB]
    refine ⟨?_, ?_, ?_, ?_, ?_, ?_, ?_, ?_, ?_, ?_, ?_, ?_, ?_, ?_, ?_, ?_⟩ <;> omega

/-- Multiplication by a negative curve constant. -/
theorem mul_signed_spec {x : BN} (hx : x.Red) {c : ℕ} (hc : c < 2 ^ 20) :
    ∃ r, mul_with_signed_curve_constant x (-(c : ℤ)) = .ok r ∧ r.toF = -(c : F) * x.toF ∧ r.Red := by
  obtain ⟨r, h1, h2, h3⟩ := mul_w_spec hx hc
  have hneg : ¬ (-(c : ℤ) > 0) := by omega
  have hs := sub_spec red_zero h3
  refine ⟨sub BIG_ZERO r, ?_, ?_, hs.2⟩
  · unfold mul_with_signed_curve_constant
    rw [if_neg hneg, neg_neg, BitVec.ofInt_natCast, h1]
    rfl
  · rw [hs.1, toF_zero, h2]; ring

end Ed448
