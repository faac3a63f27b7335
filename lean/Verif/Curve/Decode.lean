import Verif.Curve.DoubleMul
import Verif.Curve.Comb
import Verif.Spec.Decode

/-!
# Decoding of points
-/

set_option exponentiation.threshold 1000

namespace Ed448

/-! ### The check of the y coordinate -/

theorem scarryChain_spec : ∀ (ms : List W32) (v : ℕ) (s : W32),
    (scarryChain (digits28 ms.length v) ms s).toNat = checkCarry (baseDigits ms.length v) (ms.map (·.toNat)) s.toNat
  | [], v, s => rfl
  | m :: ms, v, s => by
    have e : ((s + BitVec.ofNat 32 (v % 2 ^ 28) - m) >>> 8 * @OfNat.ofNat (BitVec 32) 4 BitVec.instOfNat).toNat =
        checkStep s.toNat (v % 2 ^ 28) m.toNat := by
      have h1 := s.isLt
      have h2 := m.isLt
      have h3 := Nat.mod_lt v (show 0 < 2 ^ 28 by norm_num)
      rw [BitVec.toNat_mul, BitVec.toNat_ushiftRight, BitVec.toNat_sub, BitVec.toNat_add, BitVec.toNat_ofNat, Nat.shiftRight_eq_div_pow,
        show (@OfNat.ofNat (BitVec 32) 4 BitVec.instOfNat).toNat = 4 from rfl, checkStep]
      generalize s.toNat = a at *
      generalize m.toNat = b at *
      generalize v % 2 ^ 28 = c at *
      omega
    rw [List.length_cons, digits28, scarryChain, scarryChain_spec ms, List.map_cons, baseDigits, checkCarry, e]

attribute [local irreducible] scarryChain digits28 checkCarry baseDigits in
theorem check_spec (v : ℕ) : (scarryChain (digits28 16 v) MODULUS 0 != 0) = decide (PassesCheck v) := by
  have h := scarryChain_spec MODULUS v 0
  have h2 : MODULUS.map (·.toNat) = checkWords := rfl
  have h3 : MODULUS.length = 16 := rfl
  rw [h2, h3, show (@OfNat.ofNat (BitVec 32) 0 BitVec.instOfNat).toNat = 0 from rfl] at h
  rw [Bool.eq_iff_iff, bne_iff_ne, decide_eq_true_iff, PassesCheck]
  rw [← h, ne_eq, ne_eq, not_iff_not]
  constructor
  · intro h; rw [h]; rfl
  · intro h; exact BitVec.eq_of_toNat_eq h

/-! ### The square root -/

theorem one_sub_d_ne (y : F) : 1 - edD * y ^ 2 ≠ 0 := by
  intro h0
  have hy : y ≠ 0 := by
    rintro rfl
    norm_num at h0
  have hd : IsSquare edD := ⟨y⁻¹, by field_simp; linear_combination -h0⟩
  exact (inferInstance : IsogenyCoeff edD).nonsquare hd

/-- If y is the y coordinate of a point, the candidate is the x coordinate, up to the sign. -/
theorem xCand_sq (A : E) : xCand A.y ^ 2 = A.x ^ 2 := by
  have h := A.on
  have hne := one_sub_d_ne A.y
  unfold xCand
  generalize A.x = x at *
  generalize A.y = y at *
  generalize hu : 1 - edD * y ^ 2 = u at *
  have hz : 1 - y ^ 2 = x ^ 2 * u := by rw [← hu]; linear_combination -h
  rw [hz]
  by_cases hx : x = 0
  · subst hx; ring
  have h1 : (x * u) ^ (p - 1) = 1 := ZMod.pow_card_sub_one_eq_one (mul_ne_zero hx hne)
  have e : p - 1 = 4 * ((p - 3) / 4) + 2 := by rw [p_def]; decide +kernel
  rw [e] at h1
  have h2 : (x ^ 2 * u * (x ^ 2 * u * u) ^ ((p - 3) / 4)) ^ 2 = x ^ 2 * (x * u) ^ (4 * ((p - 3) / 4) + 2) := by
    rw [show x ^ 2 * u * u = (x * u) ^ 2 by ring, pow_add, pow_mul, mul_pow, ← pow_mul (_ ^ 2), mul_comm ((p - 3) / 4), pow_mul, ← pow_mul,
      ← pow_mul]
    generalize (p - 3) / 4 = k
    rw [← pow_mul]
    ring
  rw [h2, h1, mul_one]

/-- If y is not the y coordinate of a point, the square of the candidate is off by the sign. -/
theorem xCand_sq_off {y : F} (h : ¬ ∃ A : E, A.y = y) : xCand y ^ 2 * (1 - edD * y ^ 2) = -(1 - y ^ 2) := by
  have hne := one_sub_d_ne y
  unfold xCand
  have h2 : ((1 - y ^ 2) * (1 - edD * y ^ 2)) ^ ((p - 1) / 2) = -1 := by
    have h3 : (1 - y ^ 2) * (1 - edD * y ^ 2) ≠ 0 := by
      intro h0
      have := (mul_eq_zero.mp h0).resolve_right hne
      exact h ⟨⟨0, y, by linear_combination -this⟩, rfl⟩
    rcases ZMod.pow_div_two_eq_neg_one_or_one p h3 with h4 | h4
    · exfalso
      obtain ⟨r, hr⟩ := (ZMod.euler_criterion p h3).mpr h4
      refine h ⟨⟨r / (1 - edD * y ^ 2), y, ?_⟩, rfl⟩
      field_simp
      have e : r ^ 2 = (1 - y ^ 2) * (1 - edD * y ^ 2) := by rw [hr]; ring
      rw [e]
      ring
    · have e : p / 2 = (p - 1) / 2 := by rw [p_def]; decide +kernel
      rw [← e]; exact h4
  have e : (p - 1) / 2 = 2 * ((p - 3) / 4) + 1 := by rw [p_def]; decide +kernel
  rw [e, pow_succ, mul_comm 2, pow_mul] at h2
  generalize ((1 - y ^ 2) * (1 - edD * y ^ 2)) ^ ((p - 3) / 4) = w at *
  linear_combination (1 - y ^ 2) * h2

/-- The x coordinate chosen by the sign bit. -/
noncomputable def xChoice (y : F) (s : ℕ) : F := if (xCand y).val % 2 = s then xCand y else -xCand y

theorem xChoice_sq (y : F) (s : ℕ) : xChoice y s ^ 2 = xCand y ^ 2 := by
  unfold xChoice
  split <;> ring

theorem xChoice_parity (y : F) {s : ℕ} (hs : s < 2) : xChoice y s = 0 ∨ (xChoice y s).val % 2 = s := by
  unfold xChoice
  split
  · next h => exact Or.inr h
  · next h =>
    by_cases h0 : xCand y = 0
    · exact Or.inl (by rw [h0, neg_zero])
    · have := parity_neg h0
      right
      omega

/-! ### The isogeny applied by the decoder, and its check -/

theorem byteMasks : ∀ n : Fin 256,
    ~~~(is_zero_mask ((@OfNat.ofNat (BitVec 32) 0x80 BitVec.instOfNat) &&& (BitVec.ofFin n : Byte).setWidth 32)) = maskOf (n.val / 128 == 1) ∧
    is_zero_mask (((BitVec.ofFin n : Byte) &&& (~~~(@OfNat.ofNat (BitVec 32) 0x80 BitVec.instOfNat)).setWidth 8).setWidth 32) =
      maskOf (n.val % 128 == 0) := by
  decide +kernel

theorem maskOf_not (b : Bool) : ~~~(maskOf b) = maskOf (!b) := by cases b <;> rfl
theorem maskOf_and (a b : Bool) : maskOf a &&& maskOf b = maskOf (a && b) := by cases a <;> cases b <;> rfl
theorem maskOf_xor (a b : Bool) : maskOf a ^^^ maskOf b = maskOf (a ^^ b) := by cases a <;> cases b <;> rfl
theorem maskOf_eq_ones (a : Bool) : (maskOf a == @OfNat.ofNat (BitVec 32) 0xffffffff BitVec.instOfNat) = a := by cases a <;> rfl
theorem maskOf_eq_zero (a : Bool) : (maskOf a == @OfNat.ofNat (BitVec 32) 0 BitVec.instOfNat) = !a := by cases a <;> rfl

theorem digits28_red (v : ℕ) : (BN.ofList (digits28 16 v)).Red := by
  have h : ∀ n : ℕ, (BitVec.ofNat 32 (n % 2 ^ 28)).toNat < RB := by
    intro n
    have := Nat.mod_lt n (show 0 < 2 ^ 28 by norm_num)
    rw [BitVec.toNat_ofNat, RB]
    omega
  exact ⟨h _, h _, h _, h _, h _, h _, h _, h _, h _, h _, h _, h _, h _, h _, h _, h _⟩

theorem digits28_toF {v : ℕ} (hv : v < 2 ^ 448) : (BN.ofList (digits28 16 v)).toF = (v : F) := by
  rw [BN.toF, limbsNat_ofList (digits28_length 16 v), limbsNat_digits28, Nat.mod_eq_of_lt]
  calc v < 2 ^ 448 := hv
    _ = (2 ^ 28) ^ 16 := by rw [← pow_mul]

theorem is_on_curve_spec {P : Pt} (h : P.Red) : P.is_on_curve = .ok
    (decide (LowZero (P.x.toF * P.y.toF - P.z.toF * P.t.toF)) &&
      decide (LowZero (P.y.toF ^ 2 - P.x.toF ^ 2 - (P.z.toF ^ 2 - (1 - edD) * P.t.toF ^ 2))) && !decide (LowZero P.z.toF)) := by
  obtain ⟨a1, a2⟩ := mul_spec h.x.mb h.y.mb
  obtain ⟨b1, b2⟩ := mul_spec h.z.mb h.t.mb
  obtain ⟨c1, c2⟩ := square_spec h.x.mb
  obtain ⟨d1, d2⟩ := square_spec h.y.mb
  obtain ⟨e1, e2⟩ := sub_spec d2 c2
  obtain ⟨f1, f2⟩ := square_spec h.t.mb
  obtain ⟨g, g0, g1, g2⟩ := mul_w_spec f2 (c := 39082) (by norm_num)
  obtain ⟨i1, i2⟩ := square_spec h.z.mb
  obtain ⟨j1, j2⟩ := sub_spec i2 g2
  unfold Pt.is_on_curve
  dsimp only
  rw [show BitVec.ofInt 64 (1 - EDWARDS_D) = BitVec.ofNat 64 39082 from rfl, g0, bind_ok, decaf_equal_spec a2 b2, decaf_equal_spec e2 j2,
    decaf_equal_spec h.z red_zero, maskOf_not, maskOf_and, maskOf_and, maskOf_eq_ones, a1, b1, e1, d1, c1, j1, i1, g1, f1, toF_zero, sub_zero]
  have k : (1 - edD) = ((39082 : ℕ) : F) := by rw [edD]; push_cast; ring
  rw [k, pow_two, pow_two, pow_two, pow_two]
  rfl

theorem decodeRoot_spec {y : BN} (hY : y.Red) {s : ℕ} (hs : s < 2) : ∃ x, decodeRoot y (maskOf (s == 1)) = .ok x ∧ x.Red ∧
    x.toF = -xChoice y.toF s := by
  obtain ⟨x1, x2⟩ := square_spec hY.mb
  obtain ⟨z1, z2⟩ := sub_spec red_one x2
  obtain ⟨t, t0, t1, t2⟩ := mul_signed_spec x2 (c := 39081) (by norm_num)
  obtain ⟨t3, t4⟩ := sub_spec red_one t2
  obtain ⟨x3, x4⟩ := mul_spec z2.mb t4.mb
  obtain ⟨t5, t6⟩ := isr_spec x4
  obtain ⟨x5, x6⟩ := mul_spec t6.mb z2.mb
  have hlow := low_bit_spec x6.l8
  unfold decodeRoot
  dsimp only
  rw [show EDWARDS_D = -((39081 : ℕ) : ℤ) from rfl, t0, bind_ok]
  generalize hr : mul (isr (mul (sub BIG_ONE (square y)) (sub BIG_ONE t))) (sub BIG_ONE (square y)) = r at *
  have hrF : r.toF = xCand y.toF := by
    rw [x5, t5, x3, z1, t3, t1, x1, toF_one, xCand, edD]
    push_cast
    rw [mul_comm, pow_two]
  refine ⟨_, rfl, ?_⟩
  rw [hlow, maskOf_not, maskOf_xor, decaf_cond_negate_spec, hrF]
  unfold xChoice
  obtain ⟨n1, n2⟩ := neg_spec x6
  have hp := Nat.mod_lt (xCand y.toF).val (show 0 < 2 by norm_num)
  by_cases hc : (xCand y.toF).val % 2 = s
  · rw [if_pos hc, if_pos (by
      rw [hc]
      interval_cases s <;> rfl), n1, hrF]
    exact ⟨n2, rfl⟩
  · rw [if_neg hc, if_neg (by
      generalize (xCand y.toF).val % 2 = u at *
      interval_cases s <;> interval_cases u <;> first | exact absurd rfl hc | simp), hrF, neg_neg]
    exact ⟨x6, rfl⟩

theorem decodeIsogeny_spec {x y : BN} (hx : x.Red) (hy : y.Red) : (decodeIsogeny x y).Red ∧
    (decodeIsogeny x y).x.toF = 2 * (x.toF * y.toF) * (2 - x.toF ^ 2 - y.toF ^ 2) ∧
    (decodeIsogeny x y).y.toF = (y.toF ^ 2 - x.toF ^ 2) * (x.toF ^ 2 + y.toF ^ 2) ∧
    (decodeIsogeny x y).z.toF = (y.toF ^ 2 - x.toF ^ 2) * (2 - x.toF ^ 2 - y.toF ^ 2) ∧
    (decodeIsogeny x y).t.toF = 2 * (x.toF * y.toF) * (x.toF ^ 2 + y.toF ^ 2) := by
  obtain ⟨c1, c2⟩ := square_spec hx.mb
  obtain ⟨a1, a2⟩ := square_spec hy.mb
  obtain ⟨d1, d2⟩ := add_spec c2 a2
  obtain ⟨e1, e2⟩ := add_spec hy hx
  obtain ⟨f1, f2⟩ := square_spec e2.mb
  obtain ⟨g1, g2⟩ := sub_spec f2 d2
  obtain ⟨i1, i2⟩ := sub_spec a2 c2
  obtain ⟨j1, j2⟩ := square_spec red_one.mb
  obtain ⟨k1, k2⟩ := add_spec j2 j2
  obtain ⟨l1, l2⟩ := sub_spec k2 d2
  obtain ⟨p1, p2⟩ := mul_spec l2.mb g2.mb
  obtain ⟨q1, q2⟩ := mul_spec i2.mb l2.mb
  obtain ⟨r1, r2⟩ := mul_spec i2.mb d2.mb
  obtain ⟨s1, s2⟩ := mul_spec g2.mb d2.mb
  refine ⟨⟨p2, r2, q2, s2⟩, p1.trans ?_, r1.trans ?_, q1.trans ?_, s1.trans ?_⟩
  · rw [l1, k1, j1, d1, c1, a1, g1, f1, e1, d1, c1, a1, toF_one]
    ring
  · rw [i1, d1, c1, a1]
    ring
  · rw [i1, l1, k1, j1, d1, c1, a1, toF_one]
    ring
  · rw [g1, f1, e1, d1, c1, a1]
    ring

theorem signBit_lt (b : List Byte) : signBit b < 2 := by
  have := (b.getD 56 0).isLt
  rw [signBit]
  omega

theorem yNat_lt {b : List Byte} (h : b.length = 57) : yNat b < 2 ^ 448 := by
  have := leNat_lt (b.take 56)
  rw [List.length_take, h] at this
  calc _ < _ := this
    _ = 2 ^ 448 := by norm_num

attribute [local irreducible] is_zero_mask decodeRoot decodeIsogeny decodeFinish dsa_like_deserialize

theorem decode57_spec (b : Arr Byte 57) : ∃ x y : BN, x.Red ∧ y.Red ∧ y.toF = (yNat b.1 : F) ∧ x.toF = -xChoice (yNat b.1) (signBit b.1) ∧
    eddsaDecode57 b = decodeFinish (decodeIsogeny x y) (maskOf (padBits b.1 == 0 && decide (PassesCheck (yNat b.1)))) := by
  have hb : b.1[56]'(by rw [b.2]; norm_num) = BitVec.ofFin (b.1.getD 56 0).toFin := by
    rw [List.getD_eq_getElem?_getD, List.getElem?_eq_getElem (by rw [b.2]; norm_num)]
    rfl
  obtain ⟨m1, m2⟩ := byteMasks (b.1.getD 56 0).toFin
  rw [← hb] at m1 m2
  have hY := digits28_red (yNat b.1)
  have hYF := digits28_toF (yNat_lt b.2)
  obtain ⟨x, x1, x2, x3⟩ := decodeRoot_spec hY (signBit_lt b.1)
  rw [hYF] at x3
  refine ⟨x, _, x2, hY, hYF, x3, ?_⟩
  unfold eddsaDecode57
  dsimp only
  have htake : leNat (List.take 56 (b.1.set 56 (b.1[56]'(by rw [b.2]; norm_num) &&&
      (~~~(@OfNat.ofNat (BitVec 32) 0x80 BitVec.instOfNat)).setWidth 8))) = yNat b.1 := by
    rw [yNat, List.take_set_of_le (le_refl _)]
  rw [m1, m2, dsa_like_deserialize_spec]
  dsimp only
  rw [htake, check_spec, maskOf_and]
  change (decodeRoot (BN.ofList (digits28 16 (yNat b.1))) (maskOf (signBit b.1 == 1)) >>= _) = _
  rw [x1, bind_ok]
  rfl

/-! ### The result of decoding -/

theorem LowZero_zero : LowZero 0 := by
  rw [LowZero, ZMod.val_zero]
  rfl

/-- The scalar one fourth. -/
def quarterScalar : Scalar := halve (halve SCALAR_ONE)

theorem q_mod_four : q % 4 = 3 := by rw [q_def]; decide +kernel

theorem quarter_val : quarterScalar.val = (q + 1) / 4 := by
  have h2 := q_mod_four
  rw [quarterScalar, halve_val, halve_val, SCALAR_ONE_val, if_neg (show ¬ 1 % 2 = 0 by norm_num), if_pos (by omega)]
  omega

theorem quarter_lt : quarterScalar.val < q := by
  have := q_mod_four
  rw [quarter_val]
  omega

/-- On multiples of four the scalars count modulo q. -/
theorem smul_four_congr (A : E) {m n k : ℤ} (h : m = n + k * q) : m • (4 • A) = n • (4 • A) := by
  rw [h, add_smul, mul_smul, natCast_zsmul, q_smul_four, smul_zero, add_zero]

/-- Four times the point represented by a decoded string. -/
theorem quarter_four (A : E) : 4 • (recoded quarterScalar • A) = (q + 1) • A := by
  obtain ⟨k, hk⟩ := recoded_mod quarter_lt
  have h2 := q_mod_four
  rw [smul_comm, smul_four_congr A hk, natCast_zsmul, smul_smul, quarter_val]
  congr 1
  omega

theorem four_cleared (A : E) : 4 • ((q + 1) • A) = 4 • A := by
  rw [smul_comm, add_smul, q_smul_four, zero_add, one_smul]

theorem decodeIsogeny_rep {x y : BN} (hx : x.Red) (hy : y.Red) {A : E} (h1 : A.y = y.toF) (h2 : x.toF = -A.x) :
    RepT (decodeIsogeny x y) A := by
  obtain ⟨r, dx, dy, dz, dt⟩ := decodeIsogeny_spec hx hy
  rw [h2, ← h1] at dx dy dz dt
  have k1 := A.phiX_mul
  have k2 := A.phiY_mul
  have n1 := A.phi_den_x
  have n2 := A.phi_den_y
  refine ⟨r, (decodeIsogeny x y).z.toF, 1, ?_, by ring, ?_, ?_, by ring, ?_⟩
  · rw [dz]
    refine mul_ne_zero ?_ ?_
    · intro h; apply n1; linear_combination -h
    · intro h; apply n2; linear_combination h
  · rw [dx, dz]
    linear_combination (2 - A.x ^ 2 - A.y ^ 2) * k1
  · rw [dy, dz]
    linear_combination (A.x ^ 2 - A.y ^ 2) * k2
  · rw [dt, dz]
    linear_combination (A.phiX * (A.x ^ 2 - A.y ^ 2)) * k2 + (A.x ^ 2 + A.y ^ 2) * k1


/-- The point that a string stands for is the candidate with the right sign. -/
theorem Decodes.choice {b : List Byte} {A : E} (h : Decodes b A) : xChoice (yNat b) (signBit b) = A.x := by
  obtain ⟨h1, h2⟩ := h
  have h3 := xCand_sq A
  have h4 := xChoice_sq (yNat b) (signBit b)
  have h5 := xChoice_parity (yNat b) (signBit_lt b)
  rw [← h1] at *
  generalize xChoice A.y (signBit b) = x at *
  have h6 : (x - A.x) * (x + A.x) = 0 := by linear_combination h4 + h3
  rcases mul_eq_zero.mp h6 with h7 | h7
  · exact sub_eq_zero.mp h7
  · have h8 : x = -A.x := by linear_combination h7
    by_cases h0 : A.x = 0
    · rw [h8, h0, neg_zero]
    · exfalso
      have h9 := parity_neg h0
      rw [h8] at h5
      rcases h5 with h5 | h5
      · exact h0 (neg_eq_zero.mp h5)
      · rcases h2 with h2 | h2
        · exact h0 h2
        · omega

theorem Decodes.of_y {b : List Byte} {C : E} (h : C.y = (yNat b : F)) : ∃ A : E, Decodes b A := by
  have h1 := xCand_sq C
  rw [h, ← xChoice_sq _ (signBit b)] at h1
  refine ⟨⟨xChoice (yNat b) (signBit b), C.y, ?_⟩, h, xChoice_parity _ (signBit_lt b)⟩
  rw [h1]
  exact C.on

theorem Decodes.unique {b : List Byte} {A C : E} (h : Decodes b A) (h' : Decodes b C) : A = C := by
  ext
  · rw [← h.choice, h'.choice]
  · rw [h.1, h'.1]

theorem decode_length {b : List Byte} (h : b.length ≠ 57) : eddsa_like_decode b = .ok (.error .InvalidLengthError) := by
  unfold eddsa_like_decode
  rw [dif_neg h]
  rfl

theorem decodeFinish_spec {P : Pt} (hP : P.Red) (ok : Bool) :
    decodeFinish P (maskOf ok) = if LowZero (P.x.toF * P.y.toF - P.z.toF * P.t.toF) ∧
      LowZero (P.y.toF ^ 2 - P.x.toF ^ 2 - (P.z.toF ^ 2 - (1 - edD) * P.t.toF ^ 2)) ∧ ¬ LowZero P.z.toF ∧ ok = true then
        (P.point_scalar_mul quarterScalar >>= fun p => pure (.ok p)) else .ok (.error .DecodeError) := by
  unfold decodeFinish
  dsimp only
  rw [is_on_curve_spec hP, bind_ok, maskOf_eq_zero]
  by_cases h1 : LowZero (P.x.toF * P.y.toF - P.z.toF * P.t.toF) <;>
  by_cases h2 : LowZero (P.y.toF ^ 2 - P.x.toF ^ 2 - (P.z.toF ^ 2 - (1 - edD) * P.t.toF ^ 2)) <;>
  by_cases h3 : LowZero P.z.toF <;> cases ok <;> simp [h1, h2, h3] <;> rfl

/-- What the decoder does with a 57-byte string. -/
theorem decode_cases {b : List Byte} (hb : b.length = 57) :
    (Accepted b ∧ ∃ P, eddsa_like_decode b = .ok (.ok P) ∧ P.Red ∧ ∀ A, Decodes b A → RepT P (recoded quarterScalar • A)) ∨
    (¬ Accepted b ∧ eddsa_like_decode b = .ok (.error .DecodeError)) := by
  obtain ⟨x, y, hx, hy, y1, x1, e⟩ := decode57_spec ⟨b, hb⟩
  obtain ⟨r, dx, dy, dz, dt⟩ := decodeIsogeny_spec hx hy
  have e2 : eddsa_like_decode b = eddsaDecode57 ⟨b, hb⟩ := by
    unfold eddsa_like_decode
    rw [dif_pos hb]
  rw [e2, e, decodeFinish_spec r]
  have hsq : x.toF ^ 2 = xCand (yNat b) ^ 2 := by rw [x1, neg_sq, xChoice_sq]
  have f1 : (decodeIsogeny x y).x.toF * (decodeIsogeny x y).y.toF - (decodeIsogeny x y).z.toF * (decodeIsogeny x y).t.toF = 0 := by
    rw [dx, dy, dz, dt]; ring
  have f2 : (decodeIsogeny x y).y.toF ^ 2 - (decodeIsogeny x y).x.toF ^ 2 -
      ((decodeIsogeny x y).z.toF ^ 2 - (1 - edD) * (decodeIsogeny x y).t.toF ^ 2) = imageDefect (xCand (yNat b)) (yNat b) := by
    rw [dx, dy, dz, dt, imageDefect, y1]
    simp only [mul_pow, hsq]
    ring
  have f3 : (decodeIsogeny x y).z.toF = imageZ (xCand (yNat b)) (yNat b) := by
    rw [dz, imageZ, y1, hsq]
  rw [f1, f2, f3]
  have hA : (LowZero 0 ∧ LowZero (imageDefect (xCand (yNat b)) (yNat b)) ∧ ¬ LowZero (imageZ (xCand (yNat b)) (yNat b)) ∧
      (padBits b == 0 && decide (PassesCheck (yNat b))) = true) ↔ Accepted b := by
    rw [Accepted, Bool.and_eq_true, beq_iff_eq, decide_eq_true_iff]
    have := LowZero_zero
    tauto
  by_cases h : Accepted b
  · left
    refine ⟨h, ?_⟩
    rw [if_pos (hA.mpr h)]
    obtain ⟨P, p1, p2⟩ := point_scalar_mul_red r quarterScalar
    refine ⟨P, ?_, p2, ?_⟩
    · rw [p1, bind_ok]
      rfl
    · intro A hd
      obtain ⟨P', p3, p4⟩ := point_scalar_mul_rep (decodeIsogeny_rep hx hy (A := A) (by rw [y1, hd.1]) (by rw [x1, ← hd.choice])) quarterScalar
      rw [p1] at p3
      injection p3 with p3
      rw [p3]
      exact p4
  · right
    refine ⟨h, ?_⟩
    rw [if_neg (fun h' => h (hA.mp h'))]

/-- For the y coordinate of a point only the denominator matters. -/
theorem accepted_iff_of_point {b : List Byte} {A : E} (h : Decodes b A) :
    Accepted b ↔ b.length = 57 ∧ padBits b = 0 ∧ PassesCheck (yNat b) ∧ ¬ LowZero (imageZ A.x A.y) := by
  have h1 := xCand_sq A
  rw [h.1] at h1
  have h2 : imageDefect (xCand (yNat b)) (yNat b) = 0 := by
    have e : imageDefect (xCand (yNat b)) (yNat b) = imageDefect A.x A.y := by
      unfold imageDefect
      simp only [mul_pow, h1, h.1]
    rw [e, imageDefect]
    have h3 := A.on
    generalize A.x = x at *
    generalize A.y = y at *
    linear_combination (4 * (x ^ 2 + y ^ 2) ^ 2) * h3
  have h4 : imageZ (xCand (yNat b)) (yNat b) = imageZ A.x A.y := by
    unfold imageZ
    rw [h1, h.1]
  rw [Accepted, h2, h4]
  have := LowZero_zero
  tauto

end Ed448
