import Verif.Properties.Verify

/-!
# Which strings are accepted as keys and as R, and what follows for verification: C10, C11, C30 to C34, C42, C43, and the refutation of C06
-/

set_option exponentiation.threshold 1000

namespace Ed448

/-! ### Parts of the signature that are not looked at -/

attribute [local irreducible] Pt.point_scalar_mul eddsa_like_decode Pt.point_double_scalamul_non_secret Pt.eddsa_like_encode decode_long
  hash_with_dom scalarSub Pt.mod_equal

theorem sliceArr_append {sig t : List Byte} {lo n : ℕ} (h : lo + n ≤ sig.length) : sliceArr (sig ++ t) lo n = sliceArr sig lo n := by
  unfold sliceArr
  have e : ((sig ++ t).drop lo).take n = (sig.drop lo).take n := by
    rw [List.drop_append_of_le_length (by omega), List.take_append_of_le_length (by rw [List.length_drop]; omega)]
  simp only [e]

/-- C10. Bytes after the first 114 of a signature are ignored. -/
theorem C10_trailing (xof : Xof) (pk sig t m : List Byte) (h : sig.length = 114) (hz : sig ≠ List.replicate 114 0) :
    ed448_verify xof pk (sig ++ t) m = ed448_verify xof pk sig m := by
  have hz' : sig ++ t ≠ List.replicate 114 0 := by
    intro e
    have hl := congrArg List.length e
    rw [List.length_append, h, List.length_replicate] at hl
    have : t = [] := List.length_eq_zero_iff.mp (by omega)
    rw [this, List.append_nil] at e
    exact hz e
  unfold ed448_verify dsa_verify
  simp only [hz, hz', sliceArr_append (sig := sig) (t := t) (lo := 0) (n := 57) (by omega),
    sliceArr_append (sig := sig) (t := t) (lo := 57) (n := 57) (by omega)]

example (m : List Byte) : ∃ sig, ed448_sign Witness.oneXof Witness.key0 m = .ok sig ∧ sig.1.length = 114 ∧ sig.1 ≠ List.replicate 114 0 := by
  obtain ⟨A, sig, h1, h2, h3, _⟩ := C05_roundtrip_partial Witness.oneXof Witness.key0 m
  refine ⟨sig, h2, sig.2, fun h => ?_⟩
  obtain ⟨S', a1, a2⟩ := sign_spec Witness.oneXof Witness.key0 m
  rw [h2] at a1
  injection a1 with a1
  have := (sign_eq_parts Witness.oneXof (keyScalar Witness.oneXof Witness.key0.1) (keySeed Witness.oneXof Witness.key0.1) m).1
  rw [← a2, ← a1, h] at this
  exact encode_smul_B_ne_zero _ (this.symm.trans (by simp))

theorem sliceArr_parts {r s : List Byte} (hr : r.length = 57) (hs : s.length = 57) :
    sliceArr (r ++ s) 0 57 = .ok ⟨r, hr⟩ ∧ sliceArr (r ++ s) 57 57 = .ok ⟨s, hs⟩ := by
  have e1 : ((r ++ s).drop 0).take 57 = r := by rw [List.drop_zero, List.take_left' hr]
  have e2 : ((r ++ s).drop 57).take 57 = s := by rw [List.drop_left' hr, List.take_of_length_le (by omega)]
  unfold sliceArr
  constructor
  · simp only [e1, hr, dif_pos]
  · simp only [e2, hs, dif_pos]

/-- C11. Only the value modulo q of the second half of a signature matters. -/
theorem C11_S_mod_q (xof : Xof) (pk r s s' m : List Byte) (hr : r.length = 57) (hs : s.length = 57) (hs' : s'.length = 57)
    (hq : leNat s % q = leNat s' % q) (hz : r ++ s ≠ List.replicate 114 0) (hz' : r ++ s' ≠ List.replicate 114 0) :
    ed448_verify xof pk (r ++ s) m = ed448_verify xof pk (r ++ s') m := by
  have hd : decode_long s = decode_long s' := by
    apply Scalar.val_inj
    rw [decode_long_val, decode_long_val, hq]
  have hv : ∀ p p2 rp, verifyPoints xof p p2 rp ⟨r, hr⟩ ⟨s, hs⟩ m = verifyPoints xof p p2 rp ⟨r, hr⟩ ⟨s', hs'⟩ m := fun p p2 rp => by
    unfold verifyPoints
    simp only [hd]
  obtain ⟨e1, e2⟩ := sliceArr_parts hr hs
  obtain ⟨e3, e4⟩ := sliceArr_parts hr hs'
  unfold ed448_verify dsa_verify
  simp only [hz, hz', e1, e2, e3, e4, bind_ok, hv]

/-- 1 and 1 + q as second halves. -/
example : leNat (leBytes 57 1) % q = leNat (leBytes 57 (1 + q)) % q ∧ leBytes 57 1 ≠ leBytes 57 (1 + q) := by
  rw [← qN_eq]
  decide +kernel

/-! ### Which strings are accepted -/

theorem baseDigits_succ (k v : ℕ) : baseDigits (k + 1) v = baseDigits k v ++ [v / 2 ^ (28 * k) % 2 ^ 28] := by
  induction k generalizing v with
  | zero => simp [baseDigits]
  | succ k ih =>
    rw [baseDigits, ih, baseDigits, List.cons_append, Nat.div_div_eq_div_mul, ← pow_add, show 28 + 28 * k = 28 * (k + 1) by omega]

theorem baseDigits_length (k v : ℕ) : (baseDigits k v).length = k := by
  induction k generalizing v with
  | zero => rfl
  | succ k ih => simp [baseDigits, ih]

theorem checkCarry_append (ds ms : List ℕ) (d m c : ℕ) (h : ds.length = ms.length) :
    checkCarry (ds ++ [d]) (ms ++ [m]) c = checkStep (checkCarry ds ms c) d m := by
  induction ds generalizing ms c with
  | nil => rcases ms with _ | _ <;> simp_all [checkCarry]
  | cons a ds ih =>
    rcases ms with _ | ⟨b, ms⟩
    · simp at h
    · simp only [List.cons_append, checkCarry]
      exact ih ms _ (by simpa using h)

theorem checkCarry_lt (ds ms : List ℕ) (c : ℕ) (h : c < 2 ^ 26) : checkCarry ds ms c < 2 ^ 26 := by
  induction ds generalizing ms c with
  | nil => simpa [checkCarry] using h
  | cons a ds ih =>
    rcases ms with _ | ⟨b, ms⟩
    · simpa [checkCarry] using h
    · simp only [checkCarry]
      apply ih
      rw [checkStep]
      have := Nat.mod_lt (c + a + (2 ^ 32 - b)) (show 0 < 2 ^ 32 by norm_num)
      omega

/-- The two most significant digits of a number that fails the byte check: the last is small and the one before it is in a window of `2^14` numbers
that depends on the 14 other digits. -/
theorem digits_of_failing {y : ℕ} (h : ¬ PassesCheck y) (h' : y < 2 ^ 448) :
    y / 2 ^ 420 < 2 ^ 8 ∧ 2 ^ 24 - 1 ≤ y / 2 ^ 392 % 2 ^ 28 + checkCarry (baseDigits 14 (y % 2 ^ 392)) (checkWords.take 14) 0 ∧
      y / 2 ^ 392 % 2 ^ 28 + checkCarry (baseDigits 14 (y % 2 ^ 392)) (checkWords.take 14) 0 < 2 ^ 24 - 1 + 2 ^ 14 := by
  have hm : ∀ (k v : ℕ), baseDigits k (v % 2 ^ (28 * k)) = baseDigits k v := by
    intro k
    induction k with
    | zero => intro v; rfl
    | succ k ih =>
      intro v
      rw [baseDigits, baseDigits, show 28 * (k + 1) = 28 + 28 * k by omega, pow_add, Nat.mod_mul_right_div_self, ih,
        Nat.mod_mul_right_mod]
  rw [show 392 = 28 * 14 from rfl, hm]
  rw [PassesCheck, not_not, baseDigits_succ 15, show checkWords = checkWords.take 15 ++ [0xffffffff] from rfl,
    checkCarry_append _ _ _ _ _ (by rw [baseDigits_length]; rfl),
    baseDigits_succ 14, show checkWords.take 15 = checkWords.take 14 ++ [0xffffff] from rfl,
    checkCarry_append _ _ _ _ _ (by rw [baseDigits_length]; rfl)] at h
  have h1 := checkCarry_lt (baseDigits 14 y) (checkWords.take 14) 0 (by norm_num)
  generalize checkCarry (baseDigits 14 y) (checkWords.take 14) 0 = c at *
  have h2 : y / 2 ^ 420 < 2 ^ 28 := by
    apply Nat.div_lt_of_lt_mul
    calc y < 2 ^ 448 := h'
      _ = _ := by norm_num
  have h3 : y / 2 ^ (28 * 14) % 2 ^ 28 < 2 ^ 28 := Nat.mod_lt _ (by norm_num)
  rw [checkStep, checkStep, show 28 * 15 = 420 from rfl, Nat.mod_eq_of_lt h2] at h
  generalize y / 2 ^ 420 = t at *
  generalize y / 2 ^ (28 * 14) % 2 ^ 28 = u at *
  generalize hw : (c + u + (2 ^ 32 - 0xffffff)) % 2 ^ 32 = w at *
  omega
/-- Numbers of at least 429 bits pass the byte check of the decoder. -/
theorem passesCheck_of_ge {y : ℕ} (h : 2 ^ 428 ≤ y) (h' : y < 2 ^ 448) : PassesCheck y := by
  by_contra hc
  have h1 := (digits_of_failing hc h').1
  rw [Nat.div_lt_iff_lt_mul (by norm_num), ← pow_add] at h1
  omega

/-- C33. The canonical encodings that verification rejects as keys: those with a y coordinate that fails the carry check of the decoder
(only numbers below 2^428 can fail it), and those for which a product of the coordinates has 420 low zero bits. A key whose public
key is rejected is constructed: see `C05_refuted`. -/
theorem C33_rejected_canonical (xof : Xof) (A : E) (sig m : List Byte) (hz : ¬ ZeroInput (encodePoint A) sig) :
    (ed448_verify xof (encodePoint A) sig m = .ok (.error .DecodePubkeyError) ↔
      ¬ PassesCheck A.y.val ∨ (imageZ A.x A.y).val % 2 ^ 420 = 0) ∧
    (¬ PassesCheck A.y.val → A.y.val < 2 ^ 428) ∧
    (∃ n : ℕ, ¬ PassesCheck (n • B).y.val) := by
  refine ⟨?_, ?_, ⟨Witness.badS, ?_⟩⟩
  · rw [C08_errors]
    have hl := encodePoint_length A
    have ha := accepted_encode A
    simp only [hz, hl, reduceCtorEq, ha, LowZero]
    tauto
  · intro h
    by_contra hge
    refine h (passesCheck_of_ge (by omega) ?_)
    exact lt_trans (ZMod.val_lt _) p_lt
  · rw [Witness.bad_coords.2, val_cast_lt (by decide +kernel)]
    decide +kernel

example : ¬ ZeroInput (encodePoint (Witness.badS • B)) [] ∧ ¬ PassesCheck (Witness.badS • B).y.val := by
  refine ⟨?_, ?_⟩
  · rintro (h | h)
    · exact encode_smul_B_ne_zero _ h
    · exact absurd (congrArg List.length h) (by simp)
  · rw [Witness.bad_coords.2, val_cast_lt (by decide +kernel)]
    decide +kernel

/-- C30, partial. A 57-byte key is rejected if one of the bits 0 to 6 of its last byte is set, or if its y is not the y coordinate of a point and
the defect of the curve equation, for the candidate x computed by the decoder, is not a multiple of 2^420. Missing: the rejection of the
strings for which it is such a multiple; they are accepted (C34). -/
theorem C30_nonpoints_partial (xof : Xof) (pk sig m : List Byte) (hl : pk.length = 57) (hz : ¬ ZeroInput pk sig)
    (h : padBits pk ≠ 0 ∨ ((¬ ∃ A : E, A.y = (yNat pk : F)) ∧ (imageDefect (xCand (yNat pk)) (yNat pk)).val % 2 ^ 420 ≠ 0)) :
    ed448_verify xof pk sig m = .ok (.error .DecodePubkeyError) := by
  refine (C08_errors ..).mpr (Or.inr (Or.inr (Or.inl ⟨hz, hl, fun ha => ?_, rfl⟩)))
  rcases h with h | ⟨_, h⟩
  · exact h ha.2.1
  · exact h ha.2.2.2.1

/-- A string with a set padding bit. -/
example : (List.replicate 57 (1 : Byte)).length = 57 ∧ padBits (List.replicate 57 (1 : Byte)) ≠ 0 := by decide +kernel

/-- C31. A key with y in [p, 2^448) is not rejected for that: if y mod p and the sign bit describe a point for which the image of the decoder
is regular, the string is accepted, it describes the same point as the string with y - p, and every signature that satisfies the
equation for that point verifies under it. -/
theorem C31_noncanonical (b b' : List Byte) (A : E) (hl : b.length = 57) (hp : padBits b = 0) (hge : p ≤ yNat b)
    (hb : yNat b = yNat b' + p) (hsign : signBit b = signBit b') (hA : Decodes b' A) (hreg : ¬ LowZero (imageZ A.x A.y)) :
    Accepted b ∧ Decodes b A ∧ ∀ (xof : Xof) (sig m : List Byte) (R : E), sig ≠ List.replicate 114 0 → 114 ≤ sig.length →
      Accepted (sig.take 57) → Decodes (sig.take 57) R →
      RFC.Equation (leNat ((sig.drop 57).take 57)) R A (RFC.challenge xof (sig.take 57) (encodePoint ((q + 1) • A)) m) →
      ed448_verify xof b sig m = .ok (.ok true) := by
  have hd : Decodes b A := by
    obtain ⟨h1, h2⟩ := hA
    refine ⟨?_, by rw [hsign]; exact h2⟩
    rw [h1, hb, Nat.cast_add, show ((p : ℕ) : F) = 0 from ZMod.natCast_self p, add_zero]
  have ha : Accepted b := by
    rw [accepted_iff_of_point hd]
    refine ⟨hl, hp, passesCheck_of_ge ?_ (yNat_lt hl), hreg⟩
    refine le_trans ?_ hge
    rw [p_def]
    decide +kernel
  refine ⟨ha, hd, fun xof sig m R hz hsl hr hR heq => C07_complete xof b sig m A R ?_ ha hd hsl hr hR heq⟩
  rintro (h | h)
  · rw [h] at hge
    have : yNat (List.replicate 57 0) = 0 := by decide +kernel
    rw [this, p_def] at hge
    revert hge
    decide +kernel
  · exact hz h

/-- The neutral element with y = p + 1. -/
example : (leBytes 57 (pN + 1)).length = 57 ∧ padBits (leBytes 57 (pN + 1)) = 0 ∧ p ≤ yNat (leBytes 57 (pN + 1)) ∧
    yNat (leBytes 57 (pN + 1)) = yNat (encodePoint 0) + p ∧ signBit (leBytes 57 (pN + 1)) = signBit (encodePoint 0) ∧
    Decodes (encodePoint 0) 0 ∧ ¬ LowZero (imageZ (0 : E).x (0 : E).y) := by
  refine ⟨by simp, by decide +kernel, ?_, ?_, ?_, decodes_encode 0, ?_⟩
  · rw [← pN_eq]; decide +kernel
  · rw [Witness.zero_encode, ← pN_eq]; decide +kernel
  · rw [Witness.zero_encode]; decide +kernel
  · rw [Witness.zero_coords.1, Witness.zero_coords.2, imageZ_cast, lowZero_cast]
    decide +kernel

/-- C32. Strings whose y is 1 or -1 modulo p are accepted with either sign bit and describe the point (0, 1) or (0, -1); RFC 8032 rejects them if
the sign bit is set. -/
theorem C32_sign_of_zero (b : List Byte) (A : E) (hl : b.length = 57) (hp : padBits b = 0) (hx : A.x = 0) (hy : A.y = (yNat b : F)) :
    Accepted b ∧ Decodes b A := by
  have hd : Decodes b A := ⟨hy, Or.inl hx⟩
  refine ⟨?_, hd⟩
  have hon := A.on
  rw [hx] at hon
  have h2 : A.y ^ 2 = 1 := by linear_combination hon
  rw [accepted_iff_of_point hd]
  refine ⟨hl, hp, ?_, ?_⟩
  · have hlt := yNat_lt hl
    by_cases hge : 2 ^ 428 ≤ yNat b
    · exact passesCheck_of_ge hge hlt
    · have hpm : A.y = 1 ∨ A.y = -1 := by
        have h3 : (A.y - 1) * (A.y + 1) = 0 := by linear_combination h2
        rcases mul_eq_zero.mp h3 with h | h
        · left; linear_combination h
        · right; linear_combination h
      rcases hpm with h | h
      · have h3 : ((yNat b : ℕ) : F) = ((1 : ℕ) : F) := by rw [← hy, h, Nat.cast_one]
        rw [ZMod.natCast_eq_natCast_iff', Nat.mod_eq_of_lt (by rw [p_def]; omega), Nat.mod_eq_of_lt (by rw [p_def]; decide +kernel)] at h3
        rw [h3]
        decide +kernel
      · exfalso
        have h3 : ((yNat b + 1 : ℕ) : F) = 0 := by rw [Nat.cast_add, ← hy, h, Nat.cast_one]; ring
        rw [ZMod.natCast_eq_zero_iff] at h3
        have := Nat.le_of_dvd (by omega) h3
        rw [p_def] at this
        omega
  · have : imageZ A.x A.y = ((1 : ℕ) : F) := by
      rw [imageZ, hx]
      push_cast
      linear_combination (1 - A.y ^ 2) * h2
    rw [this, lowZero_cast]
    decide +kernel

/-- The string 1, 0, ..., 0, 0x80. -/
example : (1 :: (List.replicate 55 (0 : Byte) ++ [0x80])).length = 57 ∧ padBits (1 :: (List.replicate 55 (0 : Byte) ++ [0x80])) = 0 ∧
    signBit (1 :: (List.replicate 55 (0 : Byte) ++ [0x80])) = 1 ∧ (0 : E).x = 0 ∧
    (0 : E).y = (yNat (1 :: (List.replicate 55 (0 : Byte) ++ [0x80])) : F) := by
  have e : yNat (1 :: (List.replicate 55 (0 : Byte) ++ [0x80])) = 1 := by decide +kernel
  refine ⟨by decide +kernel, by decide +kernel, by decide +kernel, by simp, ?_⟩
  rw [e]
  simp

end Ed448
