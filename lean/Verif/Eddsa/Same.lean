import Verif.Curve.Same
import Verif.Eddsa.Verify

/-!
# Verification depends only on the decoded key, up to sign
-/

set_option exponentiation.threshold 1000

namespace Ed448

theorem encode_same {P P' : Pt} (h : Scaled 1 P P') : P.eddsa_like_encode.1 = P'.eddsa_like_encode.1 := by
  rw [encode_coords h.red, encode_coords h.red', h.x, h.y, h.z]
  simp only [one_mul]

attribute [local irreducible] Pt.point_scalar_mul Pt.point_double_scalamul_non_secret Pt.eddsa_like_encode decode_long
  hash_with_dom scalarSub Pt.mod_equal decodeIsogeny eddsaDecode57 decodeFinish

theorem verifyPoints_both (xof : Xof) {p p' p2 p2' : Pt} (r : Pt) (h : Scaled 1 p p') (h2 : Scaled 1 p2 p2') (sig1 sig2 : Arr Byte 57) (m : List Byte) :
    Both (fun a b => a.1 = b.1 ∧ Scaled 1 a.2 b.2) (verifyPoints xof p p2 r sig1 sig2 m) (verifyPoints xof p' p2' r sig1 sig2 m) := by
  unfold verifyPoints
  rw [encode_same h]
  refine Both.same _ fun R => ?_
  refine (double_mul_both (by ring) h2 _ _).bind fun Q Q' hQ => ?_
  exact Both.ok ⟨rfl, hQ⟩

/-- Accepted strings whose images have the same coordinates, up to one common sign, are decoded to points with the same coordinates. -/
theorem decode_both {b b' : List Byte} (ha : Accepted b) (ha' : Accepted b') {m : F} (hm : m * m = 1)
    (hs : ∀ x y x' y' : BN, x.Red → y.Red → x'.Red → y'.Red → y.toF = (yNat b : F) → x.toF = -xChoice (yNat b) (signBit b) →
      y'.toF = (yNat b' : F) → x'.toF = -xChoice (yNat b') (signBit b') → Scaled m (decodeIsogeny x y) (decodeIsogeny x' y')) :
    ∃ P P', eddsa_like_decode b = .ok (.ok P) ∧ eddsa_like_decode b' = .ok (.ok P') ∧ Scaled 1 P P' := by
  have key : ∀ c : List Byte, Accepted c → ∃ x y : BN, x.Red ∧ y.Red ∧ y.toF = (yNat c : F) ∧ x.toF = -xChoice (yNat c) (signBit c) ∧
      eddsa_like_decode c = ((decodeIsogeny x y).point_scalar_mul quarterScalar >>= fun p => pure (.ok p)) := by
    intro c hc
    obtain ⟨x, y, hx, hy, y1, x1, e⟩ := decode57_spec ⟨c, hc.1⟩
    obtain ⟨r, dx, dy, dz, dt⟩ := decodeIsogeny_spec hx hy
    refine ⟨x, y, hx, hy, y1, x1, ?_⟩
    have e2 : eddsa_like_decode c = eddsaDecode57 ⟨c, hc.1⟩ := by
      unfold eddsa_like_decode
      rw [dif_pos hc.1]
    rcases decode_cases hc.1 with ⟨_, P, h1, _⟩ | ⟨h1, _⟩
    · rw [e2, e, decodeFinish_spec r] at h1
      rw [e2, e, decodeFinish_spec r]
      split at h1
      · next h => rw [if_pos h]
      · next h => simp at h1
    · exact absurd hc h1
  obtain ⟨x, y, hx, hy, y1, x1, e⟩ := key b ha
  obtain ⟨x', y', hx', hy', y1', x1', e'⟩ := key b' ha'
  have h := hs x y x' y' hx hy hx' hy' y1 x1 y1' x1'
  rw [e, e']
  rcases scalar_mul_both hm h quarterScalar with ⟨w, e1, _⟩ | ⟨P, P', e1, e2, h1⟩
  · obtain ⟨P, p1, _⟩ := point_scalar_mul_red h.red quarterScalar
    rw [p1] at e1
    simp at e1
  · rw [e1, e2]
    exact ⟨P, P', rfl, rfl, h1⟩

theorem verify_of_decode (xof : Xof) {b b' : List Byte} {P P' : Pt} (e : eddsa_like_decode b = .ok (.ok P)) (e' : eddsa_like_decode b' = .ok (.ok P'))
    (h : Scaled 1 P P') (sig m : List Byte) : dsa_verify xof b sig m = dsa_verify xof b' sig m := by
  obtain ⟨p2, g1, g2⟩ := point_scalar_mul_red h.red SCALAR_FOUR
  obtain ⟨p2', g1', g2'⟩ := point_scalar_mul_red h.red' SCALAR_FOUR
  have h2 : Scaled 1 p2 p2' := by
    rcases scalar_mul_both (by ring) h SCALAR_FOUR with ⟨w, e1, _⟩ | ⟨Q, Q', e1, e2, h1⟩
    · rw [g1] at e1
      simp at e1
    · rw [g1] at e1
      rw [g1'] at e2
      injection e1 with e1
      injection e2 with e2
      rw [e1, e2]
      exact h1
  have hstart : ∀ (c : List Byte) (p p2 : Pt), eddsa_like_decode c = .ok (.ok p) → p.point_scalar_mul SCALAR_FOUR = .ok p2 →
      dsa_verify xof c sig m = (sliceArr sig 0 57 >>= fun sig1 => sliceArr sig 57 57 >>= fun sig2 => eddsa_like_decode sig1.1 >>= fun d =>
        match d with
        | .error .InvalidLengthError => pure (.error .InvalidSignatureLengthError)
        | .error .DecodeError => pure (.error .DecodeSignatureError)
        | .error _ => .error .explicit
        | .ok r => verifyPoints xof p p2 r sig1 sig2 m >>= fun r => pure (.ok (r.1.mod_equal r.2))) := by
    intro c p p2 h1 h2
    unfold dsa_verify
    rw [h1, bind_ok]
    dsimp only
    rw [h2, bind_ok]
    rfl
  rw [hstart b P p2 e g1, hstart b' P' p2' e' g1']
  rcases hs1 : sliceArr sig 0 57 with w | sig1
  · rw [bind_err, bind_err]
  rcases hs2 : sliceArr sig 57 57 with w | sig2
  · rw [bind_ok, bind_ok, bind_err, bind_err]
  rw [bind_ok, bind_ok, bind_ok, bind_ok]
  rcases decode_cases sig1.2 with ⟨_, r, d1, r2, _⟩ | ⟨_, d1⟩
  · rw [d1, bind_ok, bind_ok]
    dsimp only
    rcases verifyPoints_both xof r h h2 sig1 sig2 m with ⟨w, e1, e2⟩ | ⟨a, a', e1, e2, h1, h3⟩
    · rw [e1, e2, bind_err]
    · obtain ⟨_, _, v1, v2, v3, _⟩ := verifyPoints_spec xof h.red g1 r2 sig1 sig2 m
      rw [e1] at v1
      injection v1 with v1
      rw [v1] at h1 h3
      rw [e1, e2, v1, bind_ok, bind_ok]
      dsimp only at h1 h3 ⊢
      rw [mod_equal_spec v2 h3.red, ← h1, mod_equal_spec v2 h3.red', h3.x, h3.y, one_mul, one_mul]
  · rw [d1, bind_ok, bind_ok]

/-! ### Points of order dividing 4 -/

theorem torsion_cases {T : E} (h : 4 • T = 0) : (T.x = 0 ∧ T.y * T.y = 1) ∨ (T.y = 0 ∧ T.x * T.x = 1) := by
  have h2 : (T + T) + (T + T) = 0 := by
    rw [← h]
    abel
  have hx : (T + T).x = 0 := by
    have h3 := congrArg Edw.x (eq_neg_of_add_eq_zero_left h2)
    rw [Edw.neg_x] at h3
    have h4 : 2 * (T + T).x = 0 := by linear_combination h3
    exact (mul_eq_zero.mp h4).resolve_left F_two_ne_zero
  have h3 := Edw.add_x_mul T T
  rw [hx, zero_mul] at h3
  have h4 : 2 * (T.x * T.y) = 0 := by linear_combination -h3
  have hon := T.on
  rcases mul_eq_zero.mp ((mul_eq_zero.mp h4).resolve_left F_two_ne_zero) with h5 | h5
  · left
    rw [h5] at hon
    exact ⟨h5, by linear_combination hon⟩
  · right
    rw [h5] at hon
    exact ⟨h5, by linear_combination hon⟩

theorem add_torsion (A : E) {T : E} (h : T.x * T.y = 0) : (A + T).x = A.x * T.y + T.x * A.y ∧ (A + T).y = A.y * T.y - A.x * T.x := by
  have hx := Edw.add_x_mul A T
  have hy := Edw.add_y_mul A T
  exact ⟨by linear_combination hx - edD * (A + T).x * A.x * A.y * h, by linear_combination hy + edD * (A + T).y * A.x * A.y * h⟩

/-- Accepted strings for points that differ by a point of order dividing 4 are the same key to the verifier. -/
theorem verify_torsion (xof : Xof) {b b' : List Byte} {A T : E} (hT : 4 • T = 0) (ha : Accepted b) (ha' : Accepted b') (hd : Decodes b (A + T))
    (hd' : Decodes b' A) (sig m : List Byte) : dsa_verify xof b sig m = dsa_verify xof b' sig m := by
  have hs : ∃ s : F, s * s = 1 ∧ ∀ x y x' y' : BN, x.Red → y.Red → x'.Red → y'.Red → y.toF = (yNat b' : F) → x.toF = -xChoice (yNat b') (signBit b') →
      y'.toF = (yNat b : F) → x'.toF = -xChoice (yNat b) (signBit b) → Scaled s (decodeIsogeny x y) (decodeIsogeny x' y') := by
    rcases torsion_cases hT with ⟨tx, ty⟩ | ⟨ty, tx⟩
    · obtain ⟨ex, ey⟩ := add_torsion A (T := T) (by rw [tx, zero_mul])
      refine ⟨1, by ring, fun x y x' y' hx hy hx' hy' y1 x1 y1' x1' => ?_⟩
      obtain ⟨r, dx, dy, dz, dt⟩ := decodeIsogeny_spec hx hy
      obtain ⟨r', dx', dy', dz', dt'⟩ := decodeIsogeny_spec hx' hy'
      rw [hd'.choice] at x1
      rw [hd.choice, ex, tx] at x1'
      rw [← hd'.1] at y1
      rw [← hd.1, ey, tx] at y1'
      have e1 : x'.toF = x.toF * T.y := by rw [x1, x1']; ring
      have e2 : y'.toF = y.toF * T.y := by rw [y1, y1']; ring
      refine ⟨r, r', ?_, ?_, ?_, ?_⟩
      · rw [dx, dx', e1, e2]
        linear_combination (2 * x.toF * y.toF * (2 - (x.toF ^ 2 + y.toF ^ 2) * T.y * T.y) - 2 * x.toF * y.toF * (x.toF ^ 2 + y.toF ^ 2)) * ty
      · rw [dy, dy', e1, e2]
        linear_combination ((y.toF ^ 2 - x.toF ^ 2) * (x.toF ^ 2 + y.toF ^ 2) * (T.y * T.y + 1)) * ty
      · rw [dz, dz', e1, e2]
        linear_combination ((y.toF ^ 2 - x.toF ^ 2) * (2 - (x.toF ^ 2 + y.toF ^ 2) * T.y * T.y) - (y.toF ^ 2 - x.toF ^ 2) * (x.toF ^ 2 + y.toF ^ 2)) * ty
      · rw [dt, dt', e1, e2]
        linear_combination (2 * x.toF * y.toF * (x.toF ^ 2 + y.toF ^ 2) * (T.y * T.y + 1)) * ty
    · obtain ⟨ex, ey⟩ := add_torsion A (T := T) (by rw [ty, mul_zero])
      refine ⟨-1, by ring, fun x y x' y' hx hy hx' hy' y1 x1 y1' x1' => ?_⟩
      obtain ⟨r, dx, dy, dz, dt⟩ := decodeIsogeny_spec hx hy
      obtain ⟨r', dx', dy', dz', dt'⟩ := decodeIsogeny_spec hx' hy'
      rw [hd'.choice] at x1
      rw [hd.choice, ex, ty] at x1'
      rw [← hd'.1] at y1
      rw [← hd.1, ey, ty] at y1'
      have e1 : x'.toF = -(y.toF * T.x) := by rw [y1, x1']; ring
      have e2 : y'.toF = x.toF * T.x := by rw [x1, y1']; ring
      refine ⟨r, r', ?_, ?_, ?_, ?_⟩
      · rw [dx, dx', e1, e2]
        linear_combination (-2 * x.toF * y.toF * (2 - (x.toF ^ 2 + y.toF ^ 2) * T.x * T.x) + 2 * x.toF * y.toF * (x.toF ^ 2 + y.toF ^ 2)) * tx
      · rw [dy, dy', e1, e2]
        linear_combination ((x.toF ^ 2 - y.toF ^ 2) * (x.toF ^ 2 + y.toF ^ 2) * (T.x * T.x + 1)) * tx
      · rw [dz, dz', e1, e2]
        linear_combination ((x.toF ^ 2 - y.toF ^ 2) * (2 - (x.toF ^ 2 + y.toF ^ 2) * T.x * T.x) - (x.toF ^ 2 - y.toF ^ 2) * (x.toF ^ 2 + y.toF ^ 2)) * tx
      · rw [dt, dt', e1, e2]
        linear_combination (-2 * x.toF * y.toF * (x.toF ^ 2 + y.toF ^ 2) * (T.x * T.x + 1)) * tx
  obtain ⟨s, s1, s2⟩ := hs
  obtain ⟨P, P', e, e', h⟩ := decode_both ha' ha s1 s2
  exact (verify_of_decode xof e e' h sig m).symm

/-- Accepted strings with the same y modulo p and the same sign bit are the same key to the verifier, even if they describe no point. -/
theorem verify_same_y (xof : Xof) {b b' : List Byte} (ha : Accepted b) (ha' : Accepted b') (hy : (yNat b : F) = yNat b') (hs : signBit b = signBit b')
    (sig m : List Byte) : dsa_verify xof b sig m = dsa_verify xof b' sig m := by
  have hsc : ∀ x y x' y' : BN, x.Red → y.Red → x'.Red → y'.Red → y.toF = (yNat b : F) → x.toF = -xChoice (yNat b) (signBit b) →
      y'.toF = (yNat b' : F) → x'.toF = -xChoice (yNat b') (signBit b') → Scaled 1 (decodeIsogeny x y) (decodeIsogeny x' y') := by
    intro x y x' y' hx hy2 hx' hy' y1 x1 y1' x1'
    obtain ⟨r, dx, dy, dz, dt⟩ := decodeIsogeny_spec hx hy2
    obtain ⟨r', dx', dy', dz', dt'⟩ := decodeIsogeny_spec hx' hy'
    rw [← hy, ← hs, ← x1] at x1'
    rw [← hy, ← y1] at y1'
    exact ⟨r, r', by rw [dx, dx', x1', y1', one_mul], by rw [dy, dy', x1', y1', one_mul], by rw [dz, dz', x1', y1', one_mul],
      by rw [dt, dt', x1', y1', one_mul]⟩
  obtain ⟨P, P', e, e', h⟩ := decode_both ha ha' (m := 1) (by ring) hsc
  exact verify_of_decode xof e e' h sig m

end Ed448
