import Verif.Field.MulW

/-!
# Strong reduction

`strong_reduce` computes the canonical representative.
-/

namespace Ed448

theorem ofInt_mask (s : ℤ) : ((BitVec.ofInt 32 s &&& RADIX_MASK).toNat : ℤ) = s % 2 ^ 28 := by
  rw [and_mask]
  push_cast
  rw [BitVec.toNat_ofInt]
  omega

theorem ofNat_mask (s : ℕ) : (BitVec.ofNat 32 s &&& RADIX_MASK).toNat = s % 2 ^ 28 := by
  rw [and_mask, BitVec.toNat_ofNat]
  omega

theorem srSub_spec (c : ℤ) (n : W32) (m : ℤ) :
    c + (n.toNat - m) = 2 ^ 28 * (srSub c n m).1 + ((srSub c n m).2.toNat : ℤ) ∧
      (srSub c n m).2.toNat < 2 ^ 28 := by
  simp only [srSub]
  have h := ofInt_mask (c + (n.toNat - m))
  constructor
  · rw [h]; omega
  · omega

theorem srAdd_spec (c : ℕ) (n : W32) (m : ℕ) :
    c + (n.toNat + m) = 2 ^ 28 * (srAdd c n m).1 + (srAdd c n m).2.toNat ∧
      (srAdd c n m).2.toNat < 2 ^ 28 := by
  simp only [srAdd]
  have h := ofNat_mask (c + (n.toNat + m))
  constructor
  · rw [h]; omega
  · omega

theorem BN.val_cast (n : BN) : (n.val : ℤ) = n.ev (2 ^ 28 : ℤ) := by
  simp only [BN.val, BN.ev, Nat.cast_add, Nat.cast_mul, Nat.cast_pow, Nat.cast_ofNat, Nat.cast_id]

set_option exponentiation.threshold 1000 in
theorem val_lt_of_Lt {n : BN} (h : n.Lt (2 ^ 28)) : n.val < 2 ^ 448 := by
  obtain ⟨h0, h1, h2, h3, h4, h5, h6, h7, h8, h9, h10, h11, h12, h13, h14, h15⟩ := h
  simp only [BN.val, BN.ev, Nat.cast_id]
  norm_num at *
  linarith

set_option exponentiation.threshold 1000 in
theorem val_lt_of_weak {n : BN} (h : n.Lt (2 ^ 28 + 16)) : n.val < 2 ^ 448 + 2 ^ 425 := by
  obtain ⟨h0, h1, h2, h3, h4, h5, h6, h7, h8, h9, h10, h11, h12, h13, h14, h15⟩ := h
  simp only [BN.val, BN.ev, Nat.cast_id]
  norm_num at *
  linarith

set_option exponentiation.threshold 1000 in
/-- The limbs of `strong_reduce` are the 28-bit digits of the canonical representative. -/
theorem strong_reduce_spec {n : BN} (h8 : n.l8.toNat < 2 ^ 32 - 16) :
    (strong_reduce n).toF = n.toF ∧ (strong_reduce n).val < p ∧ (strong_reduce n).Lt (2 ^ 28) := by
  obtain ⟨hwF, hwL⟩ := weak_reduce_spec n h8
  have hlt := val_lt_of_weak hwL
  rw [← hwF]
  unfold strong_reduce
  generalize weak_reduce n = v at *
  have hv := v.val_cast
  simp only [BN.ev] at hv
  have es0 := srSub_spec (0 : ℤ) v.l0 0xfffffff
  obtain ⟨s0, hs0⟩ : ∃ s, s = srSub (0 : ℤ) v.l0 0xfffffff := ⟨_, rfl⟩
  simp only [← hs0] at es0 ⊢
  have es1 := srSub_spec s0.1 v.l1 0xfffffff
  obtain ⟨s1, hs1⟩ : ∃ s, s = srSub s0.1 v.l1 0xfffffff := ⟨_, rfl⟩
  simp only [← hs1] at es1 ⊢
  have es2 := srSub_spec s1.1 v.l2 0xfffffff
  obtain ⟨s2, hs2⟩ : ∃ s, s = srSub s1.1 v.l2 0xfffffff := ⟨_, rfl⟩
  simp only [← hs2] at es2 ⊢
  have es3 := srSub_spec s2.1 v.l3 0xfffffff
  obtain ⟨s3, hs3⟩ : ∃ s, s = srSub s2.1 v.l3 0xfffffff := ⟨_, rfl⟩
  simp only [← hs3] at es3 ⊢
  have es4 := srSub_spec s3.1 v.l4 0xfffffff
  obtain ⟨s4, hs4⟩ : ∃ s, s = srSub s3.1 v.l4 0xfffffff := ⟨_, rfl⟩
  simp only [← hs4] at es4 ⊢
  have es5 := srSub_spec s4.1 v.l5 0xfffffff
  obtain ⟨s5, hs5⟩ : ∃ s, s = srSub s4.1 v.l5 0xfffffff := ⟨_, rfl⟩
  simp only [← hs5] at es5 ⊢
  have es6 := srSub_spec s5.1 v.l6 0xfffffff
  obtain ⟨s6, hs6⟩ : ∃ s, s = srSub s5.1 v.l6 0xfffffff := ⟨_, rfl⟩
  simp only [← hs6] at es6 ⊢
  have es7 := srSub_spec s6.1 v.l7 0xfffffff
  obtain ⟨s7, hs7⟩ : ∃ s, s = srSub s6.1 v.l7 0xfffffff := ⟨_, rfl⟩
  simp only [← hs7] at es7 ⊢
  have es8 := srSub_spec s7.1 v.l8 0xffffffe
  obtain ⟨s8, hs8⟩ : ∃ s, s = srSub s7.1 v.l8 0xffffffe := ⟨_, rfl⟩
  simp only [← hs8] at es8 ⊢
  have es9 := srSub_spec s8.1 v.l9 0xfffffff
  obtain ⟨s9, hs9⟩ : ∃ s, s = srSub s8.1 v.l9 0xfffffff := ⟨_, rfl⟩
  simp only [← hs9] at es9 ⊢
  have es10 := srSub_spec s9.1 v.l10 0xfffffff
  obtain ⟨s10, hs10⟩ : ∃ s, s = srSub s9.1 v.l10 0xfffffff := ⟨_, rfl⟩
  simp only [← hs10] at es10 ⊢
  have es11 := srSub_spec s10.1 v.l11 0xfffffff
  obtain ⟨s11, hs11⟩ : ∃ s, s = srSub s10.1 v.l11 0xfffffff := ⟨_, rfl⟩
  simp only [← hs11] at es11 ⊢
  have es12 := srSub_spec s11.1 v.l12 0xfffffff
  obtain ⟨s12, hs12⟩ : ∃ s, s = srSub s11.1 v.l12 0xfffffff := ⟨_, rfl⟩
  simp only [← hs12] at es12 ⊢
  have es13 := srSub_spec s12.1 v.l13 0xfffffff
  obtain ⟨s13, hs13⟩ : ∃ s, s = srSub s12.1 v.l13 0xfffffff := ⟨_, rfl⟩
  simp only [← hs13] at es13 ⊢
  have es14 := srSub_spec s13.1 v.l14 0xfffffff
  obtain ⟨s14, hs14⟩ : ∃ s, s = srSub s13.1 v.l14 0xfffffff := ⟨_, rfl⟩
  simp only [← hs14] at es14 ⊢
  have es15 := srSub_spec s14.1 v.l15 0xfffffff
  obtain ⟨s15, hs15⟩ : ∃ s, s = srSub s14.1 v.l15 0xfffffff := ⟨_, rfl⟩
  simp only [← hs15] at es15 ⊢
  have hp := p_eq
  have hdL : BN.Lt ⟨s0.2, s1.2, s2.2, s3.2, s4.2, s5.2, s6.2, s7.2, s8.2, s9.2, s10.2, s11.2, s12.2, s13.2, s14.2, s15.2⟩ (2 ^ 28) :=
    ⟨es0.2, es1.2, es2.2, es3.2, es4.2, es5.2, es6.2, es7.2, es8.2, es9.2, es10.2, es11.2, es12.2, es13.2, es14.2, es15.2⟩
  obtain ⟨d, hd⟩ : ∃ r : BN, r = ⟨s0.2, s1.2, s2.2, s3.2, s4.2, s5.2, s6.2, s7.2, s8.2, s9.2, s10.2, s11.2, s12.2, s13.2, s14.2, s15.2⟩ := ⟨_, rfl⟩
  have hdv := d.val_cast
  have hDlt := val_lt_of_Lt hdL
  rw [← hd] at hdL hDlt
  rw [hd] at hdv
  simp only [BN.ev] at hdv
  rw [← hd] at hdv
  have hsum : (v.val : ℤ) - p = 2 ^ 448 * s15.1 + d.val := by
    have hp' : (p : ℤ) + 2 ^ 224 + 1 = 2 ^ 448 := by exact_mod_cast hp
    rw [hv, hdv]
    linear_combination (2 ^ 28) ^ 0 * es0.1 + (2 ^ 28) ^ 1 * es1.1 + (2 ^ 28) ^ 2 * es2.1 + (2 ^ 28) ^ 3 * es3.1 + (2 ^ 28) ^ 4 * es4.1 + (2 ^ 28) ^ 5 * es5.1 + (2 ^ 28) ^ 6 * es6.1 + (2 ^ 28) ^ 7 * es7.1 + (2 ^ 28) ^ 8 * es8.1 + (2 ^ 28) ^ 9 * es9.1 + (2 ^ 28) ^ 10 * es10.1 + (2 ^ 28) ^ 11 * es11.1 + (2 ^ 28) ^ 12 * es12.1 + (2 ^ 28) ^ 13 * es13.1 + (2 ^ 28) ^ 14 * es14.1 + (2 ^ 28) ^ 15 * es15.1 - hp'
  have hcase : (s15.1 = 0 ∧ p ≤ v.val) ∨ (s15.1 = -1 ∧ v.val < p) := by
    clear hdv hv
    clear es0 es1 es2 es3 es4 es5 es6 es7 es8 es9 es10 es11 es12 es13 es14 es15
    norm_num at hlt hDlt hsum hp ⊢
    omega
  obtain ⟨m, hm⟩ : ∃ m, m = (BitVec.ofInt 32 s15.1 &&& RADIX_MASK).toNat := ⟨_, rfl⟩
  simp only [← hm]
  obtain ⟨m', hm'⟩ : ∃ m', m' = m &&& 0xfffffffffffffffe := ⟨_, rfl⟩
  simp only [← hm']
  have hmm : (s15.1 = 0 ∧ m = 0 ∧ m' = 0) ∨ (s15.1 = -1 ∧ m = 0xfffffff ∧ m' = 0xffffffe) := by
    rcases hcase with ⟨h, _⟩ | ⟨h, _⟩
    · left; rw [h] at hm; subst hm; subst hm'; exact ⟨h, rfl, rfl⟩
    · right; rw [h] at hm; subst hm; subst hm'; exact ⟨h, rfl, rfl⟩
  clear hm hm'
  have ec0 := srAdd_spec 0 s0.2 m
  obtain ⟨c0, hc0⟩ : ∃ s, s = srAdd 0 s0.2 m := ⟨_, rfl⟩
  simp only [← hc0] at ec0 ⊢
  have ec1 := srAdd_spec c0.1 s1.2 m
  obtain ⟨c1, hc1⟩ : ∃ s, s = srAdd c0.1 s1.2 m := ⟨_, rfl⟩
  simp only [← hc1] at ec1 ⊢
  have ec2 := srAdd_spec c1.1 s2.2 m
  obtain ⟨c2, hc2⟩ : ∃ s, s = srAdd c1.1 s2.2 m := ⟨_, rfl⟩
  simp only [← hc2] at ec2 ⊢
  have ec3 := srAdd_spec c2.1 s3.2 m
  obtain ⟨c3, hc3⟩ : ∃ s, s = srAdd c2.1 s3.2 m := ⟨_, rfl⟩
  simp only [← hc3] at ec3 ⊢
  have ec4 := srAdd_spec c3.1 s4.2 m
  obtain ⟨c4, hc4⟩ : ∃ s, s = srAdd c3.1 s4.2 m := ⟨_, rfl⟩
  simp only [← hc4] at ec4 ⊢
  have ec5 := srAdd_spec c4.1 s5.2 m
  obtain ⟨c5, hc5⟩ : ∃ s, s = srAdd c4.1 s5.2 m := ⟨_, rfl⟩
  simp only [← hc5] at ec5 ⊢
  have ec6 := srAdd_spec c5.1 s6.2 m
  obtain ⟨c6, hc6⟩ : ∃ s, s = srAdd c5.1 s6.2 m := ⟨_, rfl⟩
  simp only [← hc6] at ec6 ⊢
  have ec7 := srAdd_spec c6.1 s7.2 m
  obtain ⟨c7, hc7⟩ : ∃ s, s = srAdd c6.1 s7.2 m := ⟨_, rfl⟩
  simp only [← hc7] at ec7 ⊢
  have ec8 := srAdd_spec c7.1 s8.2 m'
  obtain ⟨c8, hc8⟩ : ∃ s, s = srAdd c7.1 s8.2 m' := ⟨_, rfl⟩
  simp only [← hc8] at ec8 ⊢
  have ec9 := srAdd_spec c8.1 s9.2 m
  obtain ⟨c9, hc9⟩ : ∃ s, s = srAdd c8.1 s9.2 m := ⟨_, rfl⟩
  simp only [← hc9] at ec9 ⊢
  have ec10 := srAdd_spec c9.1 s10.2 m
  obtain ⟨c10, hc10⟩ : ∃ s, s = srAdd c9.1 s10.2 m := ⟨_, rfl⟩
  simp only [← hc10] at ec10 ⊢
  have ec11 := srAdd_spec c10.1 s11.2 m
  obtain ⟨c11, hc11⟩ : ∃ s, s = srAdd c10.1 s11.2 m := ⟨_, rfl⟩
  simp only [← hc11] at ec11 ⊢
  have ec12 := srAdd_spec c11.1 s12.2 m
  obtain ⟨c12, hc12⟩ : ∃ s, s = srAdd c11.1 s12.2 m := ⟨_, rfl⟩
  simp only [← hc12] at ec12 ⊢
  have ec13 := srAdd_spec c12.1 s13.2 m
  obtain ⟨c13, hc13⟩ : ∃ s, s = srAdd c12.1 s13.2 m := ⟨_, rfl⟩
  simp only [← hc13] at ec13 ⊢
  have ec14 := srAdd_spec c13.1 s14.2 m
  obtain ⟨c14, hc14⟩ : ∃ s, s = srAdd c13.1 s14.2 m := ⟨_, rfl⟩
  simp only [← hc14] at ec14 ⊢
  have ec15 := srAdd_spec c14.1 s15.2 m
  obtain ⟨c15, hc15⟩ : ∃ s, s = srAdd c14.1 s15.2 m := ⟨_, rfl⟩
  simp only [← hc15] at ec15 ⊢
  have hL : BN.Lt ⟨c0.2, c1.2, c2.2, c3.2, c4.2, c5.2, c6.2, c7.2, c8.2, c9.2, c10.2, c11.2, c12.2, c13.2, c14.2, c15.2⟩ (2 ^ 28) :=
    ⟨ec0.2, ec1.2, ec2.2, ec3.2, ec4.2, ec5.2, ec6.2, ec7.2, ec8.2, ec9.2, ec10.2, ec11.2, ec12.2, ec13.2, ec14.2, ec15.2⟩
  obtain ⟨r, hr⟩ : ∃ r : BN, r = ⟨c0.2, c1.2, c2.2, c3.2, c4.2, c5.2, c6.2, c7.2, c8.2, c9.2, c10.2, c11.2, c12.2, c13.2, c14.2, c15.2⟩ := ⟨_, rfl⟩
  have hrv := r.val_cast
  have hrlt := val_lt_of_Lt hL
  rw [← hr] at hL hrlt ⊢
  rw [hr] at hrv
  simp only [BN.ev] at hrv
  rw [← hr] at hrv
  have hsum2 : (d.val : ℤ) + (m * (((2 ^ 28) ^ 0 + (2 ^ 28) ^ 1 + (2 ^ 28) ^ 2 + (2 ^ 28) ^ 3 + (2 ^ 28) ^ 4 + (2 ^ 28) ^ 5 + (2 ^ 28) ^ 6 + (2 ^ 28) ^ 7 + (2 ^ 28) ^ 9 + (2 ^ 28) ^ 10 + (2 ^ 28) ^ 11 + (2 ^ 28) ^ 12 + (2 ^ 28) ^ 13 + (2 ^ 28) ^ 14 + (2 ^ 28) ^ 15)) + m' * (2 ^ 28) ^ 8) =
      2 ^ 448 * (c15.1 : ℤ) + (r.val : ℤ) := by
    rw [hrv, hdv]
    have f0 : _ = _ := congrArg (Nat.cast (R := ℤ)) ec0.1
    have f1 : _ = _ := congrArg (Nat.cast (R := ℤ)) ec1.1
    have f2 : _ = _ := congrArg (Nat.cast (R := ℤ)) ec2.1
    have f3 : _ = _ := congrArg (Nat.cast (R := ℤ)) ec3.1
    have f4 : _ = _ := congrArg (Nat.cast (R := ℤ)) ec4.1
    have f5 : _ = _ := congrArg (Nat.cast (R := ℤ)) ec5.1
    have f6 : _ = _ := congrArg (Nat.cast (R := ℤ)) ec6.1
    have f7 : _ = _ := congrArg (Nat.cast (R := ℤ)) ec7.1
    have f8 : _ = _ := congrArg (Nat.cast (R := ℤ)) ec8.1
    have f9 : _ = _ := congrArg (Nat.cast (R := ℤ)) ec9.1
    have f10 : _ = _ := congrArg (Nat.cast (R := ℤ)) ec10.1
    have f11 : _ = _ := congrArg (Nat.cast (R := ℤ)) ec11.1
    have f12 : _ = _ := congrArg (Nat.cast (R := ℤ)) ec12.1
    have f13 : _ = _ := congrArg (Nat.cast (R := ℤ)) ec13.1
    have f14 : _ = _ := congrArg (Nat.cast (R := ℤ)) ec14.1
    have f15 : _ = _ := congrArg (Nat.cast (R := ℤ)) ec15.1
    simp only [Nat.cast_add, Nat.cast_mul, Nat.cast_pow, Nat.cast_ofNat, Nat.cast_zero] at f0 f1 f2 f3 f4 f5 f6 f7 f8 f9 f10 f11 f12 f13 f14 f15
    linear_combination (2 ^ 28) ^ 0 * f0 + (2 ^ 28) ^ 1 * f1 + (2 ^ 28) ^ 2 * f2 + (2 ^ 28) ^ 3 * f3 + (2 ^ 28) ^ 4 * f4 + (2 ^ 28) ^ 5 * f5 + (2 ^ 28) ^ 6 * f6 + (2 ^ 28) ^ 7 * f7 + (2 ^ 28) ^ 8 * f8 + (2 ^ 28) ^ 9 * f9 + (2 ^ 28) ^ 10 * f10 + (2 ^ 28) ^ 11 * f11 + (2 ^ 28) ^ 12 * f12 + (2 ^ 28) ^ 13 * f13 + (2 ^ 28) ^ 14 * f14 + (2 ^ 28) ^ 15 * f15
  have key : r.val < p ∧ (r.val = v.val ∨ r.val + p = v.val) := by
    clear hdv es0 ec0 es1 ec1 es2 ec2 es3 ec3 es4 ec4 es5 ec5 es6 ec6 es7 ec7 es8 ec8 es9 ec9 es10 ec10 es11 ec11 es12 ec12 es13 ec13 es14 ec14 es15 ec15
    generalize d.val = D at *
    generalize c15.1 = c at *
    generalize r.val = R at *
    generalize v.val = V at *
    clear hrv hv
    rcases hmm with ⟨h1, h2, h3⟩ | ⟨h1, h2, h3⟩
    · rw [h1] at hsum
      rw [h2, h3] at hsum2
      norm_num at hlt hDlt hsum hsum2 hrlt hp ⊢
      omega
    · rw [h1] at hsum
      rw [h2, h3] at hsum2
      norm_num at hlt hDlt hsum hsum2 hrlt hp ⊢
      omega
  refine ⟨?_, key.1, hL⟩
  unfold BN.toF
  rcases key.2 with h | h
  · rw [h]
  · rw [← h, Nat.cast_add, ZMod.natCast_self, add_zero]

theorem strong_reduce_val {n : BN} (h8 : n.l8.toNat < 2 ^ 32 - 16) :
    (strong_reduce n).val = n.toF.val := by
  obtain ⟨h1, h2, _⟩ := strong_reduce_spec h8
  rw [← h1, BN.toF, ZMod.val_natCast, Nat.mod_eq_of_lt h2]

theorem BN.Red.l8 {n : BN} (h : n.Red) : n.l8.toNat < 2 ^ 32 - 16 := by
  have := h.2.2.2.2.2.2.2.2.1
  simp only [RB] at this
  omega

end Ed448
