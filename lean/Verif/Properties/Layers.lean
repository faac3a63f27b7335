import Verif.Properties.Hash

/-!
# The arithmetic below the interface: C35 to C41

`toF` is the element of the field that sixteen limbs stand for, `val` the number that fourteen words stand for (least significant first, both). `RepT P A` says that
the coordinates `P`, with which the code computes on an isogenous curve, stand for the point `A` of Ed448; `Rep P A` says the same without the
coordinate `t`. What encoding makes of them is in `C38` to `C40`.
-/

set_option exponentiation.threshold 1000

namespace Ed448

/-- C35. Byte strings of any length are reduced modulo the order of the group. -/
theorem C35_decode_long (b : List Byte) : (decode_long b).val = leNat b % q := decode_long_val b

/-- C35 for the function that reads 56 bytes, and for writing. -/
theorem C35_short (b : List Byte) (s : Scalar) : (scalarDecode b).val = leNat (b.take 56) % q ∧ (scalarEncode s).1 = leBytes 57 s.val ∧
    (s.val < q → decode_long (scalarEncode s).1 = s) := by
  refine ⟨scalarDecode_val b, scalarEncode_val s, fun h => Scalar.val_inj ?_⟩
  rw [decode_long_val, scalarEncode_val, leNat_leBytes, Nat.mod_eq_of_lt (a := s.val) (lt_trans s.val_lt (by norm_num)), Nat.mod_eq_of_lt h]

example : SCALAR_FOUR.val < q := four_lt_q

/-- C36. Scalar arithmetic. Addition needs only a sum below `2 q`; multiplication reduces an unreduced first factor; halving is exact. -/
theorem C36_scalar_arithmetic (a b : Scalar) (hb : b.val < q) :
    (a.val + b.val < 2 * q → (scalarAdd a b).val = (a.val + b.val) % q) ∧
    (a.val < q → (scalarSub a b).val = (a.val + q - b.val) % q) ∧
    (scalarMul a b).val = a.val * b.val % q ∧
    (halve b).val < q ∧ 2 * (halve b).val % q = b.val :=
  ⟨scalarAdd_val a b, fun ha => scalarSub_val a b ha hb, scalarMul_val a b hb, (halve_spec b hb).1, (halve_spec b hb).2⟩

example : SCALAR_FOUR.val < q ∧ SCALAR_ONE.val + SCALAR_FOUR.val < 2 * q := by
  have := four_lt_q
  rw [SCALAR_FOUR_val] at this
  rw [SCALAR_FOUR_val, SCALAR_ONE_val]
  omega

/-- C37. Field arithmetic on limbs below 2^28 + 2^11 (and, for multiplication and squaring, below 2^29 + 2^12, that is on sums of two such). All results
are again below 2^28 + 2^11. -/
theorem C37_field_arithmetic (a b : BN) (ha : a.Lt (2 ^ 28 + 2 ^ 11)) (hb : b.Lt (2 ^ 28 + 2 ^ 11)) :
    ((add a b).toF = a.toF + b.toF ∧ (add a b).Lt (2 ^ 28 + 2 ^ 11)) ∧
    ((sub a b).toF = a.toF - b.toF ∧ (sub a b).Lt (2 ^ 28 + 2 ^ 11)) ∧
    ((neg a).toF = - a.toF ∧ (neg a).Lt (2 ^ 28 + 2 ^ 11)) ∧
    ((mul a b).toF = a.toF * b.toF ∧ (mul a b).Lt (2 ^ 28 + 2 ^ 11)) ∧
    ((square a).toF = a.toF ^ 2 ∧ (square a).Lt (2 ^ 28 + 2 ^ 11)) ∧
    ((invert a).toF = a.toF⁻¹ ∧ (invert a).Lt (2 ^ 28 + 2 ^ 11)) ∧
    ((strong_reduce a).toF = a.toF ∧ (strong_reduce a).val = a.toF.val) ∧
    (dsa_like_serialize a).1 = leBytes 56 a.toF.val := by
  refine ⟨add_spec ha hb, sub_spec ha hb, neg_spec ha, mul_spec (BN.Red.mb ha) (BN.Red.mb hb), ?_, ?_, ?_, dsa_like_serialize_spec (BN.Red.l8 ha)⟩
  · rw [pow_two]
    exact square_spec (BN.Red.mb ha)
  · obtain ⟨h1, h2⟩ := invert_spec ha
    refine ⟨?_, h2⟩
    rw [h1]
    by_cases h : a.toF = 0
    · rw [h, inv_zero, zero_pow]
      have := p_eq4
      omega
    · have hp := p_eq4
      have h3 : a.toF ^ (p - 1) = 1 := ZMod.pow_card_sub_one_eq_one h
      refine eq_inv_of_mul_eq_one_left ?_
      rw [← pow_succ, show p - 2 + 1 = p - 1 by omega]
      exact h3
  · exact ⟨(strong_reduce_spec (BN.Red.l8 ha)).1, strong_reduce_val (BN.Red.l8 ha)⟩

/-- C37, products of sums. -/
theorem C37_wide_mul (a b : BN) (ha : a.Lt (2 ^ 29 + 2 ^ 12)) (hb : b.Lt (2 ^ 29 + 2 ^ 12)) :
    ((mul a b).toF = a.toF * b.toF ∧ (mul a b).Lt (2 ^ 28 + 2 ^ 11)) ∧ ((square a).toF = a.toF ^ 2 ∧ (square a).Lt (2 ^ 28 + 2 ^ 11)) := by
  rw [pow_two a.toF]
  exact ⟨mul_spec ha hb, square_spec ha⟩

/-- C37, square roots: if `a` is a nonzero square, `isr a` is the inverse of one of its roots. In general it is the power `(p - 3) / 4`. -/
theorem C37_isr (a : BN) (ha : a.Lt (2 ^ 28 + 2 ^ 11)) :
    (isr a).toF = a.toF ^ ((p - 3) / 4) ∧ (isr a).Lt (2 ^ 28 + 2 ^ 11) ∧ (a.toF ≠ 0 → IsSquare a.toF → (isr a).toF ^ 2 * a.toF = 1) := by
  obtain ⟨h1, h2⟩ := isr_spec ha
  refine ⟨h1, h2, ?_⟩
  rintro hn ⟨r, hr⟩
  have hr0 : r ≠ 0 := fun h => hn (by rw [hr, h, mul_zero])
  have hp := p_eq4
  have h3 : r ^ (p - 1) = 1 := ZMod.pow_card_sub_one_eq_one hr0
  rw [h1, ← pow_mul, ← pow_succ, hr, ← pow_two, ← pow_mul, show 2 * ((p - 3) / 4 * 2 + 1) = p - 1 by omega]
  exact h3

/-- C37, the comparison, the parity, the selections by a mask of 32 equal bits, and the multiplication by a small constant. The comparison looks at the 420 low
bits of the difference only. -/
theorem C37_helpers (a b : BN) (ha : a.Lt (2 ^ 28 + 2 ^ 11)) (hb : b.Lt (2 ^ 28 + 2 ^ 11)) (c : ℕ) (hc : c < 2 ^ 20) :
    decaf_equal a b = (if (a.toF - b.toF).val % 2 ^ 420 = 0 then BitVec.allOnes 32 else 0) ∧
    low_bit a = (if a.toF.val % 2 = 1 then BitVec.allOnes 32 else 0) ∧
    conditional_swap a b (BitVec.allOnes 32) = (b, a) ∧ conditional_swap a b 0 = (a, b) ∧
    (conditional_negate a (BitVec.allOnes 32)).toF = -a.toF ∧ conditional_negate a 0 = a ∧
    (decaf_cond_negate a (BitVec.allOnes 32)).toF = -a.toF ∧ decaf_cond_negate a 0 = a ∧
    ∃ r, mul_w a (BitVec.ofNat 64 c) = .ok r ∧ r.toF = (c : F) * a.toF ∧ r.Lt (2 ^ 28 + 2 ^ 11) := by
  refine ⟨?_, ?_, conditional_swap_spec a b true, conditional_swap_spec a b false, ?_, conditional_negate_spec a false, ?_,
    decaf_cond_negate_spec a false, mul_w_spec ha hc⟩
  · rw [decaf_equal_spec ha hb]
    by_cases h : (a.toF - b.toF).val % 2 ^ 420 = 0
    · rw [if_pos h, h]; rfl
    · rw [if_neg h, beq_eq_false_iff_ne.mpr h]; rfl
  · rw [low_bit_spec (BN.Red.l8 ha)]
    by_cases h : a.toF.val % 2 = 1
    · rw [if_pos h, h]; rfl
    · rw [if_neg h, beq_eq_false_iff_ne.mpr h]; rfl
  · rw [show BitVec.allOnes 32 = maskOf true from rfl, conditional_negate_spec]
    exact (neg_spec ha).1
  · rw [show BitVec.allOnes 32 = maskOf true from rfl, decaf_cond_negate_spec]
    exact (neg_spec ha).1

/-- The hypotheses hold for the numbers 0 and `2^420`, which are different and compare as equal in one order and as different in the other. -/
example : BIG_ZERO.Lt (2 ^ 28 + 2 ^ 11) ∧ (⟨0, 0, 0, 0, 0, 0, 0, 0, 0, 0, 0, 0, 0, 0, 0, 1⟩ : BN).Lt (2 ^ 28 + 2 ^ 11) ∧
    decaf_equal ⟨0, 0, 0, 0, 0, 0, 0, 0, 0, 0, 0, 0, 0, 0, 0, 1⟩ BIG_ZERO = BitVec.allOnes 32 ∧
    decaf_equal BIG_ZERO ⟨0, 0, 0, 0, 0, 0, 0, 0, 0, 0, 0, 0, 0, 0, 0, 1⟩ = 0 := by
  refine ⟨?_, ?_, by decide +kernel, by decide +kernel⟩ <;> (constructor <;> decide +kernel)

/-- C37, the multiplication by a small constant of either sign, the repeated squaring, and the test of a word for zero. -/
theorem C37_constants (a : BN) (ha : a.Lt (2 ^ 28 + 2 ^ 11)) (c : ℤ) (hc : |c| < 2 ^ 20) (n : ℕ) (hn : 0 < n) (w : W32) :
    (∃ r, mul_with_signed_curve_constant a c = .ok r ∧ r.toF = (c : F) * a.toF ∧ r.Lt (2 ^ 28 + 2 ^ 11)) ∧
    ((square_n a n).toF = a.toF ^ 2 ^ n ∧ (square_n a n).Lt (2 ^ 28 + 2 ^ 11)) ∧
    is_zero_mask w = if w = 0 then BitVec.allOnes 32 else 0 := by
  refine ⟨?_, square_n_spec n (2 ^ n) ⟨(pow_one _).symm, ha⟩ hn (one_mul _), is_zero_mask_spec w⟩
  obtain ⟨h1, h2⟩ := abs_lt.mp hc
  by_cases h : c > 0
  · obtain ⟨k, rfl⟩ := Int.eq_ofNat_of_zero_le h.le
    obtain ⟨r, r1, r2, r3⟩ := mul_w_spec (c := k) ha (by omega)
    refine ⟨r, ?_, by rw [r2]; push_cast; rfl, r3⟩
    rw [mul_with_signed_curve_constant, if_pos h, BitVec.ofInt_natCast, r1]
  · obtain ⟨k, hk⟩ := Int.eq_ofNat_of_zero_le (a := -c) (by omega)
    obtain rfl : c = -(k : ℤ) := by omega
    obtain ⟨r, r1, r2, r3⟩ := mul_signed_spec (c := k) ha (by omega)
    exact ⟨r, r1, by rw [r2]; push_cast; rfl, r3⟩

example : BIG_ONE.Lt (2 ^ 28 + 2 ^ 11) ∧ |(-39081 : ℤ)| < 2 ^ 20 := ⟨red_one, by norm_num⟩

/-- Every element of the field has limbs within the bounds. -/
theorem exists_limbs (v : F) : ∃ a : BN, a.Lt (2 ^ 28 + 2 ^ 11) ∧ a.toF = v := by
  have hv : v.val < 2 ^ 448 := lt_trans (ZMod.val_lt v) (by rw [p_def]; decide +kernel)
  refine ⟨_, digits28_red v.val, ?_⟩
  rw [digits28_toF hv]
  exact ZMod.natCast_zmod_val v

/-- Every point has coordinates. -/
theorem exists_repT (A : E) : ∃ P, RepT P A := by
  obtain ⟨x, x1, x2⟩ := exists_limbs A.phiX
  obtain ⟨y, y1, y2⟩ := exists_limbs A.phiY
  obtain ⟨t, t1, t2⟩ := exists_limbs (A.phiX * A.phiY)
  refine ⟨⟨x, y, BIG_ONE, t⟩, ⟨x1, y1, red_one, t1⟩, 1, 1, one_ne_zero, one_mul 1, ?_, ?_, ?_, ?_⟩
  · rw [x2, one_mul]
  · rw [y2, one_mul]
  · rw [toF_one, one_mul]
  · rw [t2, one_mul, one_mul]

/-- C38. The comb multiplication gives `[s]B`, encoded (encoding multiplies by 4) as `[4 s]B`. -/
theorem C38_fixed_base (s : Scalar) (hs : s.val < q) :
    ∃ P, precomputed_scalar_mul s = .ok P ∧ Rep P (s.val • B) ∧ P.eddsa_like_encode.1 = encodePoint ((4 * s.val) • B) := by
  obtain ⟨P, h1, h2⟩ := precomputed_scalar_mul_rep hs
  exact ⟨P, h1, h2, by rw [encode_rep h2, smul_smul]⟩

/-- C39. The window multiplication gives `[s]A` up to a point of order dividing 4, encoded (encoding multiplies by 4) as `[4 s]A`. -/
theorem C39_variable_base (P : Pt) (A : E) (s : Scalar) (h : RepT P A) (hs : s.val < q) :
    ∃ P' T, P.point_scalar_mul s = .ok P' ∧ RepT P' (s.val • A + T) ∧ 4 • T = 0 ∧
      P'.eddsa_like_encode.1 = encodePoint ((4 * s.val) • A) := by
  obtain ⟨P', h1, h2⟩ := point_scalar_mul_rep h s
  obtain ⟨k, hk⟩ := recoded_mod hs
  have hT : 4 • ((k * q) • A) = 0 := by
    rw [smul_comm, mul_smul, natCast_zsmul, q_smul_four, smul_zero]
  have e : recoded s • A = s.val • A + (k * q) • A := by
    rw [hk, add_smul, natCast_zsmul]
  rw [e] at h2
  refine ⟨P', (k * q) • A, h1, h2, hT, ?_⟩
  rw [encode_rep h2.rep, smul_add, hT, add_zero, smul_smul]

/-- C40. The double multiplication of verification gives `[s']A + [s]B`. -/
theorem C40_double (P : Pt) (A : E) (s s' : Scalar) (h : RepT P A) (hs : s.val < q) (hs' : s'.val < q) :
    ∃ P', P.point_double_scalamul_non_secret s s' = .ok P' ∧ Rep P' (s'.val • A + s.val • B) ∧
      P'.eddsa_like_encode.1 = encodePoint ((4 * s'.val) • A + (4 * s.val) • B) := by
  obtain ⟨P', h1, h2⟩ := double_mul_rep h hs hs'
  exact ⟨P', h1, h2, by rw [encode_rep h2, smul_add, smul_smul, smul_smul]⟩

example : (∃ P, RepT P B) ∧ SCALAR_FOUR.val < q := ⟨exists_repT B, four_lt_q⟩

/-- C41. The recoding of a scalar, for both sizes of tables: the digits written are odd and bounded, their powers are at least `tb + 2` apart and decreasing,
their weighted sum is the scalar, the first one is positive, they are followed by an entry with power -1, and nothing is written outside of the
buffer (otherwise the result is a panic). -/
theorem C41_recoding (s : Scalar) (hs : s.val < q) (tb n : ℕ) (h : tb = 5 ∧ n = 77 ∨ tb = 3 ∧ n = 115) :
    ∃ L rest : List SmvtControl, recode_wnaf (List.replicate n ⟨0, 0⟩) s tb = .ok (L ++ ⟨-1, 0⟩ :: rest) ∧
      (L.map (fun x => x.addend * 2 ^ x.power.toNat)).sum = (s.val : ℤ) ∧
      (∀ x ∈ L, x.addend % 2 = 1 ∧ x.addend.natAbs < 2 ^ (tb + 1) ∧ 0 ≤ x.power) ∧
      L.Pairwise (fun x y => y.power + ((tb : ℤ) + 2) ≤ x.power) ∧ (∀ x ∈ L.head?, 0 < x.addend) := by
  obtain ⟨ctl, L, h1, ⟨rest, h2⟩, h3, h4, h5⟩ := recode_wnaf_spec (tb := tb) (by omega) (List.replicate n ⟨0, 0⟩)
    (by rw [List.length_replicate]; rcases h with ⟨rfl, rfl⟩ | ⟨rfl, rfl⟩ <;> norm_num) s (lt_trans hs q_lt).le
  refine ⟨L, rest, h2 ▸ h1, ?_, ?_, h4.spaced, h5⟩
  · rw [← h3]
    clear h1 h2 h3 h4 h5
    induction L with
    | nil => rfl
    | cons x xs ih => rw [List.map_cons, List.sum_cons, ih, digitsVal]
  · intro x hx
    obtain ⟨d1, d2, d3, d4⟩ := h4.digit x hx
    refine ⟨d1, ?_, d4⟩
    zify
    exact abs_lt.mpr ⟨d2, d3⟩

end Ed448
