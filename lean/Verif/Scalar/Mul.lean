import Verif.Scalar.Halve

/-! # Montgomery multiplication modulo q -/

set_option exponentiation.threshold 1000

namespace Ed448

theorem macRow_spec (m : W32) : ∀ (ys os : List W32) (c : W64), ys.length = os.length → c.toNat < 2 ^ 32 →
    wordsNat (macRow m ys os c).1 + 2 ^ (32 * ys.length) * (macRow m ys os c).2.toNat =
      m.toNat * wordsNat ys + wordsNat os + c.toNat ∧ (macRow m ys os c).2.toNat < 2 ^ 32
  | [], [], c, _, hc => by simpa [macRow, wordsNat] using hc
  | y :: ys, o :: os, c, h, hc => by
    have hm := m.isLt
    have hy := y.isLt
    have ho := o.isLt
    have hmy : m.toNat * y.toNat ≤ (2 ^ 32 - 1) * (2 ^ 32 - 1) := Nat.mul_le_mul (by omega) (by omega)
    have hv : (u64 m * u64 y + u64 o + c).toNat = m.toNat * y.toNat + o.toNat + c.toNat := by
      rw [BitVec.toNat_add, BitVec.toNat_add, BitVec.toNat_mul, toNat_u64, toNat_u64, toNat_u64]
      omega
    have ih := macRow_spec m ys os ((u64 m * u64 y + u64 o + c) >>> 32) (by simpa using h)
      (by rw [toNat_shr32, hv]; omega)
    simp only [macRow, wordsNat, List.length_cons, toNat_lo32]
    refine ⟨?_, ih.2⟩
    have ih1 := ih.1
    rw [toNat_shr32] at ih1
    rw [show 32 * (ys.length + 1) = 32 + 32 * ys.length by ring, pow_add]
    have hd := Nat.mod_add_div (u64 m * u64 y + u64 o + c).toNat (2 ^ 32)
    generalize (u64 m * u64 y + u64 o + c).toNat / 2 ^ 32 = e at *
    generalize (u64 m * u64 y + u64 o + c).toNat % 2 ^ 32 = f at *
    generalize (2 : ℕ) ^ (32 * ys.length) = t at *
    linear_combination 2 ^ 32 * ih1 + hd + hv

theorem wordsNat_append : ∀ a b : List W32, wordsNat (a ++ b) = wordsNat a + 2 ^ (32 * a.length) * wordsNat b
  | [], b => by simp [wordsNat]
  | x :: xs, b => by
    rw [List.cons_append, wordsNat, wordsNat_append xs b, wordsNat, List.length_cons,
      show 32 * (xs.length + 1) = 32 + 32 * xs.length by ring, pow_add]
    ring

/-- The number held by the accumulator of `montgomery_multiply`. -/
def mmVal (st : Scalar × W32) : ℕ := st.1.val + 2 ^ 448 * st.2.toNat

theorem getElem0_mod (l : List W32) (h : 0 < l.length) : (l[0]).toNat = wordsNat l % 2 ^ 32 := by
  match l, h with
  | w :: ws, _ =>
    have := w.isLt
    show w.toNat = (w.toNat + 2 ^ 32 * wordsNat ws) % 2 ^ 32
    omega

theorem factor_spec : (MONTGOMERY_FACTOR.toNat * q + 1) % 2 ^ 32 = 0 := by rw [← qN_eq]; decide +kernel

theorem mmStep_core (outv yv xi fac : ℕ) (carry mm out0 : W32) (R R' : List W32 × W64) (a2 : R.2.toNat < 2 ^ 32)
    (b2 : R'.2.toNat < 2 ^ 32) (hl2 : R'.1.length = 14)
    (a1 : wordsNat R.1 + 2 ^ 448 * R.2.toNat = xi * yv + outv)
    (b1 : wordsNat R'.1 + 2 ^ 448 * R'.2.toNat = mm.toNat * q + wordsNat R.1)
    (hg : out0.toNat = wordsNat R.1 % 2 ^ 32) (hmul : mm.toNat = out0.toNat * fac % 2 ^ 32)
    (hfac : (fac * q + 1) % 2 ^ 32 = 0) (h : (R'.1.tail ++ [lo32 ((u64 (lo32 R.2) + u64 carry) + R'.2)]).length = 14) :
    2 ^ 32 * (Scalar.val ⟨R'.1.tail ++ [lo32 ((u64 (lo32 R.2) + u64 carry) + R'.2)], h⟩ +
      2 ^ 448 * (lo32 (((u64 (lo32 R.2) + u64 carry) + R'.2) >>> 32)).toNat) =
      outv + 2 ^ 448 * carry.toNat + xi * yv + mm.toNat * q := by
  have hcarry := carry.isLt
  -- the lowest word vanishes
  have hz : wordsNat R'.1 % 2 ^ 32 = 0 := by
    have h1 : (mm.toNat * q + wordsNat R.1) % 2 ^ 32 = 0 := by
      have h2 : (mm.toNat * q + wordsNat R.1) % 2 ^ 32 = (out0.toNat * (fac * q + 1)) % 2 ^ 32 := by
        rw [← Nat.add_mod_mod, ← hg, ← Nat.mod_add_mod, Nat.mul_mod, hmul, Nat.mod_mod, ← Nat.mul_mod, Nat.mod_add_mod]
        congr 1; ring
      rw [h2, Nat.mul_mod, hfac, Nat.mul_zero, Nat.zero_mod]
    rw [← b1, show 2 ^ 448 = 2 ^ 32 * 2 ^ 416 by norm_num, Nat.mul_assoc, Nat.add_mul_mod_self_left] at h1
    exact h1
  -- dropping the lowest word
  have htail : wordsNat R'.1 = 2 ^ 32 * wordsNat R'.1.tail ∧ R'.1.tail.length = 13 := by
    obtain ⟨l, c⟩ := R'
    match l, hl2 with
    | w :: ws, hl2 =>
      have := w.isLt
      simp only [wordsNat, List.tail_cons] at *
      refine ⟨by omega, by simpa using hl2⟩
  have hch : ((u64 (lo32 R.2) + u64 carry) + R'.2).toNat = R.2.toNat + carry.toNat + R'.2.toNat := by
    rw [BitVec.toNat_add, BitVec.toNat_add, toNat_u64, toNat_u64, toNat_lo32]
    omega
  have hval : Scalar.val ⟨R'.1.tail ++ [lo32 ((u64 (lo32 R.2) + u64 carry) + R'.2)], h⟩ =
      wordsNat R'.1.tail + 2 ^ 416 * (((u64 (lo32 R.2) + u64 carry) + R'.2).toNat % 2 ^ 32) := by
    show wordsNat _ = _
    rw [wordsNat_append, htail.2, wordsNat, wordsNat, toNat_lo32]
    ring
  rw [hval, toNat_lo32, toNat_shr32, hch]
  rw [htail.1] at b1
  omega

/-- One step: `2^32 * new = old + x_i * y + m * q` for some word `m`. -/
theorem mmStep_spec (y : Scalar) (st : Scalar × W32) (xi : W32) :
    ∃ m, m < 2 ^ 32 ∧ 2 ^ 32 * mmVal (mmStep y st xi) = mmVal st + xi.toNat * y.val + m * q := by
  obtain ⟨out, carry⟩ := st
  have hl1 : (macRow xi y.1 out.1 0).1.length = 14 := by rw [macRow_length, y.2, out.2]; rfl
  obtain ⟨a1, a2⟩ := macRow_spec xi y.1 out.1 0 (y.2.trans out.2.symm) (by decide)
  have hg := getElem0_mod (macRow xi y.1 out.1 0).1 (by omega)
  rw [y.2, show BitVec.toNat (0 : W64) = 0 from rfl, Nat.add_zero] at a1
  have hl2 : (macRow ((macRow xi y.1 out.1 0).1[0] * MONTGOMERY_FACTOR) SCALAR_Q.1 (macRow xi y.1 out.1 0).1 0).1.length = 14 := by
    rw [macRow_length, hl1, SCALAR_Q.2]; rfl
  obtain ⟨b1, b2⟩ := macRow_spec ((macRow xi y.1 out.1 0).1[0] * MONTGOMERY_FACTOR) SCALAR_Q.1 (macRow xi y.1 out.1 0).1 0
    (SCALAR_Q.2.trans hl1.symm) (by decide)
  rw [SCALAR_Q.2, show wordsNat SCALAR_Q.1 = q from SCALAR_Q_val, show BitVec.toNat (0 : W64) = 0 from rfl,
    Nat.add_zero] at b1
  exact ⟨_, ((macRow xi y.1 out.1 0).1[0] * MONTGOMERY_FACTOR).isLt,
    mmStep_core out.val y.val xi.toNat MONTGOMERY_FACTOR.toNat carry _ _ _ _ a2 b2 hl2 a1 b1 hg (BitVec.toNat_mul ..)
      factor_spec _⟩

/-- The outer loop. -/
theorem mm_fold_spec (y : Scalar) (hy : y.val < q) : ∀ (xs : List W32) (st : Scalar × W32), mmVal st < y.val + q →
    ∃ m, 2 ^ (32 * xs.length) * mmVal (xs.foldl (mmStep y) st) = mmVal st + wordsNat xs * y.val + m * q ∧
      mmVal (xs.foldl (mmStep y) st) < y.val + q
  | [], st, h => ⟨0, by simpa [wordsNat] using h⟩
  | x :: xs, st, h => by
    obtain ⟨m, hm, h1⟩ := mmStep_spec y st x
    have hx := x.isLt
    have hlt : mmVal (mmStep y st x) < y.val + q := by
      have e1 : x.toNat * y.val ≤ (2 ^ 32 - 1) * y.val := Nat.mul_le_mul_right _ (by omega)
      have e2 : m * q ≤ (2 ^ 32 - 1) * q := Nat.mul_le_mul_right _ (by omega)
      omega
    obtain ⟨m', h2, h3⟩ := mm_fold_spec y hy xs _ hlt
    refine ⟨m + 2 ^ 32 * m', ?_, h3⟩
    rw [List.foldl_cons, List.length_cons, show 32 * (xs.length + 1) = 32 + 32 * xs.length by ring, pow_add, mul_assoc, h2,
      wordsNat]
    linear_combination h1

theorem montgomery_multiply_spec (x y : Scalar) (hy : y.val < q) :
    (montgomery_multiply x y).val < q ∧ ∃ m, 2 ^ 448 * (montgomery_multiply x y).val + m * q ≡ x.val * y.val [MOD q] := by
  obtain ⟨m, h1, h2⟩ := mm_fold_spec y hy x.1 (SCALAR_ZERO, 0) (by
    have : mmVal (SCALAR_ZERO, 0) = 0 := by decide +kernel
    have := q_pos
    omega)
  rw [show mmVal (SCALAR_ZERO, 0) = 0 by decide +kernel, x.2] at h1
  unfold montgomery_multiply
  simp only
  generalize List.foldl (mmStep y) (SCALAR_ZERO, 0) x.1 = r at *
  have hq := q_pos
  unfold mmVal at h1 h2
  rw [sub_extra_val]
  all_goals rw [SCALAR_Q_val]
  · refine ⟨Nat.mod_lt _ hq, 0, ?_⟩
    rw [Nat.zero_mul, Nat.add_zero]
    unfold Nat.ModEq
    rw [Nat.mul_mod, Nat.mod_mod, ← Nat.mul_mod, Nat.add_sub_cancel, mul_comm r.2.toNat]
    change 2 ^ 448 * _ = 0 + x.val * y.val + m * q at h1
    rw [h1, Nat.zero_add, Nat.add_mul_mod_self_right]
  · omega
  · omega

/-- Montgomery multiplication: `x y / 2^448` modulo q. -/
theorem montgomery_multiply_cast (x y : Scalar) (hy : y.val < q) :
    (2 : ZMod q) ^ 448 * ((montgomery_multiply x y).val : ZMod q) = x.val * y.val := by
  obtain ⟨_, m, h⟩ := montgomery_multiply_spec x y hy
  have := (ZMod.natCast_eq_natCast_iff _ _ _).mpr h
  simpa only [Nat.cast_add, Nat.cast_mul, Nat.cast_pow, Nat.cast_ofNat, ZMod.natCast_self, mul_zero, add_zero] using this

theorem montgomery_multiply_lt (x y : Scalar) (hy : y.val < q) : (montgomery_multiply x y).val < q :=
  (montgomery_multiply_spec x y hy).1

theorem R2_lt : SCALAR_R2.val < q := by rw [SCALAR_R2_val]; exact Nat.mod_lt _ q_pos

theorem R2_cast : (SCALAR_R2.val : ZMod q) = 2 ^ 448 * 2 ^ 448 := by
  rw [SCALAR_R2_val, ZMod.natCast_mod, Nat.cast_pow, Nat.cast_ofNat, ← pow_add]

theorem two_pow_ne_zero (k : ℕ) : (2 : ZMod q) ^ k ≠ 0 := by
  apply pow_ne_zero
  intro h
  have h2 : ((2 : ℕ) : ZMod q) = 0 := by exact_mod_cast h
  rw [ZMod.natCast_eq_zero_iff] at h2
  have := Nat.le_of_dvd (by norm_num) h2
  revert this
  rw [q_def]
  decide +kernel

/-- Multiplication by `R2` in Montgomery form is multiplication by `2^448`. -/
theorem montgomery_R2 (x : Scalar) : (montgomery_multiply x SCALAR_R2).val = x.val * 2 ^ 448 % q := by
  have h := montgomery_multiply_cast x SCALAR_R2 R2_lt
  rw [R2_cast] at h
  have h2 : ((montgomery_multiply x SCALAR_R2).val : ZMod q) = ((x.val * 2 ^ 448 : ℕ) : ZMod q) := by
    apply mul_left_cancel₀ (two_pow_ne_zero 448)
    rw [h, Nat.cast_mul, Nat.cast_pow, Nat.cast_ofNat]
    generalize (2 : ZMod q) ^ 448 = t
    ring
  rw [ZMod.natCast_eq_natCast_iff', Nat.mod_eq_of_lt (montgomery_multiply_lt _ _ R2_lt)] at h2
  exact h2

/-- `mul` multiplies modulo q; only its second argument has to be reduced. -/
theorem scalarMul_val (x y : Scalar) (hy : y.val < q) : (scalarMul x y).val = x.val * y.val % q := by
  unfold scalarMul
  simp only
  rw [montgomery_R2]
  have h := montgomery_multiply_cast x y hy
  rw [← Nat.cast_mul] at h
  have h2 : (((montgomery_multiply x y).val * 2 ^ 448 : ℕ) : ZMod q) = ((x.val * y.val : ℕ) : ZMod q) := by
    rw [← h, Nat.cast_mul, Nat.cast_pow, Nat.cast_ofNat, mul_comm]
  exact (ZMod.natCast_eq_natCast_iff' _ _ _).mp h2

theorem scalarMul_lt (x y : Scalar) (hy : y.val < q) : (scalarMul x y).val < q := by
  rw [scalarMul_val x y hy]; exact Nat.mod_lt _ q_pos

end Ed448
