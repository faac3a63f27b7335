import Verif.Model.RepairSet
import Verif.Eddsa.Repaired

/-!
# The verifier with any choice of the six repairs
-/

set_option exponentiation.threshold 1000

namespace Ed448.Repairs

/-! ### All and none -/

theorem decode_all (b : List Byte) : all.eddsa_like_decode b = Repaired.eddsa_like_decode b := rfl

theorem decode_none (b : List Byte) : none.eddsa_like_decode b = Ed448.eddsa_like_decode b := rfl

attribute [local irreducible] Pt.point_scalar_mul Pt.point_double_scalamul_non_secret decode_long hash_with_dom scalarSub scalarEncode sliceArr in
theorem verify_all (xof : Xof) (pk sig m : List Byte) : all.ed448_verify xof pk sig m = Repaired.ed448_verify xof pk sig m := by
  unfold ed448_verify Repaired.ed448_verify dsa_verify Repaired.dsa_verify
  simp only [decode_all]
  simp only [all, true_and, if_true, verifyPoints, mod_equal]
  rfl

attribute [local irreducible] Pt.point_scalar_mul Pt.point_double_scalamul_non_secret decode_long hash_with_dom scalarSub scalarEncode sliceArr in
theorem verify_none (xof : Xof) (pk sig m : List Byte) : none.ed448_verify xof pk sig m = Ed448.ed448_verify xof pk sig m := by
  unfold ed448_verify Ed448.ed448_verify dsa_verify Ed448.dsa_verify
  simp only [decode_none]
  simp only [none, Bool.false_eq_true, false_and, if_false, verifyPoints, mod_equal]
  rfl

/-! ### The parts -/

/-- What the comparison of field elements tests of a difference. -/
def Z (s : Bool) (v : F) : Prop := if s then v = 0 else LowZero v

instance (s : Bool) (v : F) : Decidable (Z s v) := by unfold Z; infer_instance

theorem Z_zero (s : Bool) : Z s 0 := by
  cases s
  · exact LowZero_zero
  · exact rfl

theorem not_Z (s : Bool) {v : F} (h : ¬ LowZero v) : ¬ Z s v := by
  cases s
  · exact h
  · intro h'
    have h' : v = 0 := h'
    rw [h'] at h
    exact h LowZero_zero

theorem decaf_equal_spec (f : Repairs) {n x : BN} (hn : n.Red) (hx : x.Red) : f.decaf_equal n x = maskOf (decide (Z f.limb15 (n.toF - x.toF))) := by
  unfold decaf_equal
  cases h : f.limb15
  · rw [if_neg (by decide), Ed448.decaf_equal_spec hn hx]
    refine congrArg maskOf ?_
    simp only [Z, LowZero, Bool.false_eq_true, if_false, Bool.beq_eq_decide_eq]
  · rw [if_pos rfl, Repaired.decaf_equal_spec hn hx]
    congr 1
    simp only [Z, sub_eq_zero, if_true]

theorem mod_equal_of_cross (f : Repairs) {P Q : Pt} (hP : P.Red) (hQ : Q.Red) (h : cross P Q = 0) : f.mod_equal P Q = true := by
  unfold mod_equal
  cases h1 : f.limb15
  · rw [if_neg (by decide), Ed448.mod_equal_spec hP hQ]
    rw [beq_iff_eq]
    have : LowZero (cross P Q) := by rw [h]; exact LowZero_zero
    exact this
  · rw [if_pos rfl, Repaired.mod_equal_spec hP hQ]
    simpa using h

theorem is_on_curve_spec (f : Repairs) {P : Pt} (h : P.Red) : f.is_on_curve P = .ok
    (decide (Z f.limb15 (P.x.toF * P.y.toF - P.z.toF * P.t.toF)) &&
      decide (Z f.limb15 (P.y.toF ^ 2 - P.x.toF ^ 2 - (P.z.toF ^ 2 - (1 - edD) * P.t.toF ^ 2))) && !decide (Z f.limb15 P.z.toF)) := by
  unfold is_on_curve
  cases h1 : f.limb15
  · rw [if_neg (by decide), Ed448.is_on_curve_spec h]
    simp only [Z, Bool.false_eq_true, if_false]
  · rw [if_pos rfl, Repaired.is_on_curve_spec h]
    simp only [Z, if_true]

/-- The comparison of y with p. -/
def Chk (s : Bool) (y : ℕ) : Prop := if s then y < p else PassesCheck y

noncomputable instance (s : Bool) (y : ℕ) : Decidable (Chk s y) := by unfold Chk; infer_instance

attribute [local irreducible] digits28 in
theorem dsa_like_deserialize_spec (f : Repairs) (input : Arr Byte 57) :
    f.dsa_like_deserialize input = (BN.ofList (digits28 16 (leNat (input.1.take 56))), maskOf (decide (Chk f.modulus (leNat (input.1.take 56))))) := by
  unfold dsa_like_deserialize
  cases h1 : f.modulus
  · rw [if_neg (by decide), Ed448.dsa_like_deserialize_spec, check_spec]
    simp only [Chk, Bool.false_eq_true, if_false]
  · rw [if_pos rfl, Repaired.dsa_like_deserialize_spec]
    simp only [Chk, if_true]

/-! ### Decoding -/

attribute [local irreducible] is_zero_mask decodeRoot decodeIsogeny decodeFinish dsa_like_deserialize decaf_equal

theorem decode57_spec (f : Repairs) (b : Arr Byte 57) : ∃ x y : BN, x.Red ∧ y.Red ∧ y.toF = (yNat b.1 : F) ∧ x.toF = -xChoice (yNat b.1) (signBit b.1) ∧
    f.eddsaDecode57 b = f.decodeFinish (decodeIsogeny x y) (maskOf (padBits b.1 == 0 && decide (Chk f.modulus (yNat b.1)) &&
      !(f.signOfZero && (signBit b.1 == 1 && decide (Z f.limb15 x.toF))))) := by
  have hb : b.1[56]'(by rw [b.2]; norm_num) = BitVec.ofFin (b.1.getD 56 0).toFin := by
    rw [List.getD_eq_getElem?_getD, List.getElem?_eq_getElem (by rw [b.2]; norm_num)]
    rfl
  obtain ⟨m1, m2⟩ := byteMasks (b.1.getD 56 0).toFin
  rw [← hb] at m1 m2
  have hY := digits28_red (yNat b.1)
  have hYF := digits28_toF (yNat_lt b.2)
  obtain ⟨x, x1, x2, x3⟩ := decodeRoot_spec hY (signBit_lt b.1)
  rw [hYF] at x3
  refine ⟨x, _, x2, hY, hYF, x3, ?_⟩
  unfold eddsaDecode57
  dsimp only
  have htake : leNat (List.take 56 (b.1.set 56 (b.1[56]'(by rw [b.2]; norm_num) &&&
      (~~~(@OfNat.ofNat (BitVec 32) 0x80 BitVec.instOfNat)).setWidth 8))) = yNat b.1 := by
    rw [yNat, List.take_set_of_le (le_refl _)]
  rw [m1, m2, dsa_like_deserialize_spec]
  dsimp only
  rw [htake, maskOf_and]
  change (decodeRoot (BN.ofList (digits28 16 (yNat b.1))) (maskOf (signBit b.1 == 1)) >>= _) = _
  rw [x1, bind_ok, decaf_equal_spec f x2 red_zero, toF_zero, sub_zero]
  change f.decodeFinish _ (if f.signOfZero = true then (_ &&& ~~~(maskOf (signBit b.1 == 1) &&& _)) else _) = _
  rw [maskOf_and, maskOf_not, maskOf_and]
  cases f.signOfZero
  · rw [if_neg (by decide), Bool.false_and, Bool.not_false, Bool.and_true]
    rfl
  · rw [if_pos rfl, Bool.true_and]
    rfl

theorem decodeFinish_spec (f : Repairs) {P : Pt} (hP : P.Red) (ok : Bool) :
    f.decodeFinish P (maskOf ok) = if Z f.limb15 (P.x.toF * P.y.toF - P.z.toF * P.t.toF) ∧
      Z f.limb15 (P.y.toF ^ 2 - P.x.toF ^ 2 - (P.z.toF ^ 2 - (1 - edD) * P.t.toF ^ 2)) ∧ ¬ Z f.limb15 P.z.toF ∧ ok = true then
        (P.point_scalar_mul quarterScalar >>= fun p => pure (.ok p)) else .ok (.error .DecodeError) := by
  unfold decodeFinish
  dsimp only
  rw [is_on_curve_spec f hP, bind_ok, maskOf_eq_zero, Repaired.ite_checks]
  rfl

theorem decode_length (f : Repairs) {b : List Byte} (h : b.length ≠ 57) : f.eddsa_like_decode b = .ok (.error .InvalidLengthError) := by
  unfold eddsa_like_decode
  rw [dif_neg h]
  rfl

/-- A string is decoded, whatever repairs are chosen, if the existing code accepts it, y is below p, and two more conditions hold that matter
only for the repairs 1 and 3. -/
theorem decode_ok (f : Repairs) {b : List Byte} (h : Accepted b) (hy : yNat b < p)
    (hd : f.limb15 = true → imageDefect (xCand (yNat b)) (yNat b) = 0)
    (hs : f.signOfZero = true → signBit b = 1 → ¬ LowZero (-xChoice (yNat b) (signBit b))) :
    ∃ P, f.eddsa_like_decode b = .ok (.ok P) ∧ P.Red ∧ ∀ A, Decodes b A → RepT P (recoded quarterScalar • A) := by
  have hb := h.1
  obtain ⟨x, y, hx, hy', y1, x1, e⟩ := decode57_spec f ⟨b, hb⟩
  obtain ⟨r, dx, dy, dz, dt⟩ := decodeIsogeny_spec hx hy'
  have e2 : f.eddsa_like_decode b = f.eddsaDecode57 ⟨b, hb⟩ := by
    unfold eddsa_like_decode
    rw [dif_pos hb]
  dsimp only at e y1 x1
  rw [e2, e, decodeFinish_spec f r]
  have hsq : x.toF ^ 2 = xCand (yNat b) ^ 2 := by rw [x1, neg_sq, xChoice_sq]
  have f1 : (decodeIsogeny x y).x.toF * (decodeIsogeny x y).y.toF - (decodeIsogeny x y).z.toF * (decodeIsogeny x y).t.toF = 0 := by
    rw [dx, dy, dz, dt]; ring
  have f2 : (decodeIsogeny x y).y.toF ^ 2 - (decodeIsogeny x y).x.toF ^ 2 -
      ((decodeIsogeny x y).z.toF ^ 2 - (1 - edD) * (decodeIsogeny x y).t.toF ^ 2) = imageDefect (xCand (yNat b)) (yNat b) := by
    rw [dx, dy, dz, dt, imageDefect, y1]
    simp only [mul_pow, hsq]
    ring
  have f3 : (decodeIsogeny x y).z.toF = imageZ (xCand (yNat b)) (yNat b) := by
    rw [dz, imageZ, y1, hsq]
  rw [f1, f2, f3]
  obtain ⟨_, h1, h2, h3, h4⟩ := h
  have g3 : Chk f.modulus (yNat b) := by
    unfold Chk
    cases f.modulus
    · exact h2
    · exact hy
  have g1 : Z f.limb15 (imageDefect (xCand (yNat b)) (yNat b)) := by
    unfold Z
    cases hl : f.limb15
    · exact h3
    · exact hd hl
  have g4 : (f.signOfZero && (signBit b == 1 && decide (Z f.limb15 x.toF))) = false := by
    cases hf : f.signOfZero
    · rfl
    · rw [Bool.true_and]
      by_cases hb1 : signBit b = 1
      · have := not_Z f.limb15 (hs hf hb1)
        rw [x1, decide_eq_false this, Bool.and_false]
      · rw [beq_eq_false_iff_ne.mpr hb1, Bool.false_and]
  rw [if_pos ⟨Z_zero _, g1, not_Z _ h4, by rw [g4, decide_eq_true g3, h1]; rfl⟩]
  obtain ⟨P, p1, p2⟩ := point_scalar_mul_red r quarterScalar
  refine ⟨P, ?_, p2, ?_⟩
  · rw [p1, bind_ok]
    rfl
  · intro A hd
    obtain ⟨P', p3, p4⟩ := point_scalar_mul_rep (decodeIsogeny_rep hx hy' (A := A) (by rw [y1, hd.1]) (by rw [x1, ← hd.choice])) quarterScalar
    rw [p1] at p3
    injection p3 with p3
    rw [p3]
    exact p4

/-- A string whose y coordinate does not pass the comparison with p is rejected. -/
theorem decode_bad (f : Repairs) {b : List Byte} (hb : b.length = 57) (h : ¬ Chk f.modulus (yNat b)) :
    f.eddsa_like_decode b = .ok (.error .DecodeError) := by
  obtain ⟨x, y, hx, hy', y1, x1, e⟩ := decode57_spec f ⟨b, hb⟩
  obtain ⟨r, dx, dy, dz, dt⟩ := decodeIsogeny_spec hx hy'
  have e2 : f.eddsa_like_decode b = f.eddsaDecode57 ⟨b, hb⟩ := by
    unfold eddsa_like_decode
    rw [dif_pos hb]
  dsimp only at e
  rw [e2, e, decodeFinish_spec f r, if_neg]
  rintro ⟨_, _, _, h'⟩
  rw [decide_eq_false h, Bool.and_false, Bool.false_and] at h'
  cases h'

end Ed448.Repairs
