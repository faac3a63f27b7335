import Verif.Properties.OffCurve
import Verif.Eddsa.Same

/-!
# Keys that are the same key to the verifier: C31, C32, C43, C54
-/

set_option exponentiation.threshold 1000

namespace Ed448

/-- The two public verification functions, for two keys for which the inner verification gives the same results. -/
theorem verify_eq_of_dsa {xof : Xof} {b b' sig m : List Byte} (h : dsa_verify xof b sig m = dsa_verify xof b' sig m) (hz : b ≠ List.replicate 57 0)
    (hz' : b' ≠ List.replicate 57 0) :
    ed448_verify xof b sig m = ed448_verify xof b' sig m ∧ ed448_verify_with_error xof b sig m = ed448_verify_with_error xof b' sig m := by
  have h1 : ed448_verify xof b sig m = ed448_verify xof b' sig m := by
    by_cases hs : sig = List.replicate 114 0
    · rw [C13_zero_rejected xof b sig m (Or.inr hs), C13_zero_rejected xof b' sig m (Or.inr hs)]
    · rw [verify_nonzero (by rintro (h | h) <;> contradiction), verify_nonzero (by rintro (h | h) <;> contradiction), h]
  exact ⟨h1, by rw [C12_with_error, C12_with_error, h1]⟩

/-- C43. Let T be a point of order dividing 4. Accepted strings for `A + T` and for `A` are the same key: for every signature string and
every message both verification functions give the same result, including errors and panics. The all-zero string, which is the
encoding of a point of order 4, is excluded because it is rejected by an explicit comparison. -/
theorem C43_torsion (xof : Xof) (b b' sig m : List Byte) (A T : E) (hT : 4 • T = 0) (ha : Accepted b) (hb : Decodes b (A + T))
    (ha' : Accepted b') (hb' : Decodes b' A) (hz : b ≠ List.replicate 57 0) (hz' : b' ≠ List.replicate 57 0) :
    ed448_verify xof b sig m = ed448_verify xof b' sig m ∧ ed448_verify_with_error xof b sig m = ed448_verify_with_error xof b' sig m :=
  verify_eq_of_dsa (verify_torsion xof hT ha ha' hb hb' sig m) hz hz'

/-- The keys `B + T` and `B`, with T of order 2. -/
example (xof : Xof) (sig m : List Byte) :
    ed448_verify xof (encodePoint (1 • B + T2)) sig m = ed448_verify xof (encodePoint (1 • B)) sig m := by
  refine (C43_torsion xof _ _ sig m (1 • B) T2 ?_ ?_ (decodes_encode _) ?_ (decodes_encode _) ?_ (encode_smul_B_ne_zero 1)).1
  · rw [show 4 = 2 * 2 from rfl, mul_smul, two_smul, two_smul, T2_double, add_zero]
  · rw [accepted_of_coords Witness.B_T2_coords.1 Witness.B_T2_coords.2 (by decide +kernel)]
    decide +kernel
  · rw [one_smul]
    exact Witness.B_accepted
  · intro h
    rw [encode_of_coords Witness.B_T2_coords.1 Witness.B_T2_coords.2 (by decide +kernel) (by decide +kernel)] at h
    exact absurd h (by decide +kernel)

/-- C54. The verifier sees a key only through y modulo p and the sign bit: two accepted strings that agree in both give the same results
for every signature string and every message, also when they describe no point of the curve. -/
theorem C54_same_y (xof : Xof) (b b' sig m : List Byte) (ha : Accepted b) (ha' : Accepted b') (hy : yNat b % p = yNat b' % p)
    (hs : signBit b = signBit b') (hz : b ≠ List.replicate 57 0) (hz' : b' ≠ List.replicate 57 0) :
    ed448_verify xof b sig m = ed448_verify xof b' sig m ∧ ed448_verify_with_error xof b sig m = ed448_verify_with_error xof b' sig m :=
  verify_eq_of_dsa (verify_same_y xof ha ha' ((ZMod.natCast_eq_natCast_iff' _ _ _).mpr hy) hs sig m) hz hz'

/-- C54. Two accepted strings that describe the same point give the same results. -/
theorem C54_same_point (xof : Xof) (b b' sig m : List Byte) (A : E) (ha : Accepted b) (ha' : Accepted b') (hd : Decodes b A) (hd' : Decodes b' A)
    (hz : b ≠ List.replicate 57 0) (hz' : b' ≠ List.replicate 57 0) :
    ed448_verify xof b sig m = ed448_verify xof b' sig m ∧ ed448_verify_with_error xof b sig m = ed448_verify_with_error xof b' sig m :=
  C43_torsion xof b b' sig m A 0 (smul_zero 4) ha (by rwa [add_zero]) ha' hd' hz hz'

theorem ne_zeros_of_yNat {b : List Byte} (h : yNat b ≠ 0) : b ≠ List.replicate 57 0 := by
  rintro rfl
  exact h (by decide +kernel)

/-- C31. A key with y in [p, 2^448) that describes a point is the same key as the accepted string with y - p, for every signature string and every
message. -/
theorem C31_same_key (xof : Xof) (b b' sig m : List Byte) (A : E) (hl : b.length = 57) (hp : padBits b = 0) (hge : p ≤ yNat b)
    (hb : yNat b = yNat b' + p) (hsign : signBit b = signBit b') (hA : Decodes b' A) (ha' : Accepted b') (hz : b' ≠ List.replicate 57 0) :
    ed448_verify xof b sig m = ed448_verify xof b' sig m ∧ ed448_verify_with_error xof b sig m = ed448_verify_with_error xof b' sig m := by
  obtain ⟨ha, hd, _⟩ := C31_noncanonical b b' A hl hp hge hb hsign hA ((accepted_iff_of_point hA).mp ha').2.2.2
  refine C54_same_point xof b b' sig m A ha ha' hd hA (ne_zeros_of_yNat ?_) hz
  have : 0 < p := by rw [p_def]; decide +kernel
  omega

/-- The neutral element with y = p + 1 and with y = 1. -/
example (xof : Xof) (sig m : List Byte) : ed448_verify xof (leBytes 57 (pN + 1)) sig m = ed448_verify xof (encodePoint 0) sig m := by
  refine (C31_same_key xof _ _ sig m 0 (by simp) (by decide +kernel) ?_ ?_ ?_ (decodes_encode 0) Witness.zero_accepted ?_).1
  · rw [← pN_eq]; decide +kernel
  · rw [Witness.zero_encode, ← pN_eq]; decide +kernel
  · rw [Witness.zero_encode]; decide +kernel
  · rw [Witness.zero_encode]; decide +kernel

/-- C32. Two strings whose y is the same 1 or -1 modulo p are the same key, whatever their sign bits are. -/
theorem C32_same_key (xof : Xof) (b b' sig m : List Byte) (A : E) (hx : A.x = 0) (hl : b.length = 57) (hp : padBits b = 0) (hy : A.y = (yNat b : F))
    (hl' : b'.length = 57) (hp' : padBits b' = 0) (hy' : A.y = (yNat b' : F)) :
    ed448_verify xof b sig m = ed448_verify xof b' sig m ∧ ed448_verify_with_error xof b sig m = ed448_verify_with_error xof b' sig m := by
  obtain ⟨ha, hd⟩ := C32_sign_of_zero b A hl hp hx hy
  obtain ⟨ha', hd'⟩ := C32_sign_of_zero b' A hl' hp' hx hy'
  have hon := A.on
  have hne : A.y ≠ 0 := by
    intro h
    rw [hx, h] at hon
    simp at hon
  refine C54_same_point xof b b' sig m A ha ha' hd hd' (ne_zeros_of_yNat ?_) (ne_zeros_of_yNat ?_)
  · intro h
    rw [h, Nat.cast_zero] at hy
    exact hne hy
  · intro h
    rw [h, Nat.cast_zero] at hy'
    exact hne hy'

/-- The strings 1, 0, ..., 0, 0x80 and 1, 0, ..., 0. -/
example (xof : Xof) (sig m : List Byte) :
    ed448_verify xof (1 :: (List.replicate 55 (0 : Byte) ++ [0x80])) sig m = ed448_verify xof (1 :: List.replicate 56 0) sig m := by
  have e : yNat (1 :: (List.replicate 55 (0 : Byte) ++ [0x80])) = 1 := by decide +kernel
  have e' : yNat (1 :: List.replicate 56 (0 : Byte)) = 1 := by decide +kernel
  refine (C32_same_key xof _ _ sig m 0 (by simp) (by decide +kernel) (by decide +kernel) ?_ (by decide +kernel) (by decide +kernel) ?_).1
  · rw [e]
    simp
  · rw [e']
    simp

end Ed448
