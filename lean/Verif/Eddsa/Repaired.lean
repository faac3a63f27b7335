import Verif.Model.Repaired
import Verif.Eddsa.Verify
import Verif.Spec.Verify

/-!
# The verifier after the repairs of `Model/Repaired.lean`
-/

set_option exponentiation.threshold 1000

namespace Ed448.Repaired

/-! ### The comparison of field elements -/

/-- The repaired comparison is equality in the field. -/
theorem decaf_equal_spec {n x : BN} (hn : n.Red) (hx : x.Red) : decaf_equal n x = maskOf (decide (n.toF = x.toF)) := by
  obtain ⟨hs1, hs2⟩ := sub_spec hn hx
  have hv := strong_reduce_val hs2.l8
  have e : decide (n.toF = x.toF) = ((n.toF - x.toF).val == 0) := by
    rw [Bool.eq_iff_iff, decide_eq_true_iff, beq_iff_eq, ZMod.val_eq_zero, sub_eq_zero]
  rw [e, ← hs1, ← hv]
  clear hv e
  simp only [decaf_equal]
  generalize strong_reduce (sub n x) = y at *
  rw [is_zero_mask_spec]
  have hiff : ((((((((((((((((((0 : W32) ||| y.l0) ||| y.l1) ||| y.l2) ||| y.l3) ||| y.l4) ||| y.l5) ||| y.l6) ||| y.l7)
      ||| y.l8) ||| y.l9) ||| y.l10) ||| y.l11) ||| y.l12) ||| y.l13) ||| y.l14) ||| y.l15) = 0) ↔ y.val = 0 := by
    rw [← limbsNat_toList, limbsNat_eq_zero]
    simp only [BN.toList, or_eq_zero_iff, List.forall_mem_cons, true_and, and_assoc, List.not_mem_nil, false_implies,
      implies_true, and_true]
  unfold maskOf
  by_cases hc : y.val = 0
  · rw [if_pos (hiff.mpr hc), hc]; rfl
  · rw [if_neg (fun h => hc (hiff.mp h)), beq_eq_false_iff_ne.mpr hc]
    rfl

theorem mod_equal_spec {P Q : Pt} (hP : P.Red) (hQ : Q.Red) : mod_equal P Q = decide (cross P Q = 0) := by
  obtain ⟨a1, a2⟩ := mul_spec hP.y.mb hQ.x.mb
  obtain ⟨b1, b2⟩ := mul_spec hP.x.mb hQ.y.mb
  unfold mod_equal
  simp only
  rw [decaf_equal_spec a2 b2, a1, b1, maskOf_eq_ones, cross]
  simp only [sub_eq_zero]

theorem is_on_curve_spec {P : Pt} (h : P.Red) : is_on_curve P = .ok
    (decide (P.x.toF * P.y.toF - P.z.toF * P.t.toF = 0) &&
      decide (P.y.toF ^ 2 - P.x.toF ^ 2 - (P.z.toF ^ 2 - (1 - edD) * P.t.toF ^ 2) = 0) && !decide (P.z.toF = 0)) := by
  obtain ⟨a1, a2⟩ := mul_spec h.x.mb h.y.mb
  obtain ⟨b1, b2⟩ := mul_spec h.z.mb h.t.mb
  obtain ⟨c1, c2⟩ := square_spec h.x.mb
  obtain ⟨d1, d2⟩ := square_spec h.y.mb
  obtain ⟨e1, e2⟩ := sub_spec d2 c2
  obtain ⟨f1, f2⟩ := square_spec h.t.mb
  obtain ⟨g, g0, g1, g2⟩ := mul_w_spec f2 (c := 39082) (by norm_num)
  obtain ⟨i1, i2⟩ := square_spec h.z.mb
  obtain ⟨j1, j2⟩ := sub_spec i2 g2
  unfold is_on_curve
  dsimp only
  rw [show BitVec.ofInt 64 (1 - EDWARDS_D) = BitVec.ofNat 64 39082 from rfl, g0, bind_ok, decaf_equal_spec a2 b2, decaf_equal_spec e2 j2,
    decaf_equal_spec h.z red_zero, maskOf_not, maskOf_and, maskOf_and, maskOf_eq_ones, a1, b1, e1, d1, c1, j1, i1, g1, f1, toF_zero]
  have k : (1 - edD) = ((39082 : ℕ) : F) := by rw [edD]; push_cast; ring
  rw [k, pow_two, pow_two, pow_two, pow_two]
  simp only [sub_eq_zero]
  rfl

/-! ### The comparison with p -/

theorem scarryLoop_spec : ∀ (ns ms : List W32) (s : ℤ), ns.length = ms.length →
    scarryLoop ns ms s = (s + limbsNat ns - limbsNat ms) / 2 ^ (28 * ns.length)
  | [], [], s, _ => by simp [scarryLoop, limbsNat]
  | n :: ns, m :: ms, s, h => by
    rw [List.length_cons, List.length_cons, Nat.add_right_cancel_iff] at h
    rw [scarryLoop, scarryLoop_spec ns ms _ h, List.length_cons, Nat.mul_add, Nat.mul_one, Nat.add_comm (28 * _), pow_add,
      ← Int.ediv_ediv_of_nonneg (by positivity)]
    congr 1
    rw [limbsNat, limbsNat]
    push_cast
    omega

theorem limbsNat_MODULUS : limbsNat MODULUS = p := by
  rw [p_def]
  decide +kernel

theorem borrow_iff {v P N : ℕ} (h : v < N) : ((0 : ℤ) + (v : ℤ) - (P : ℤ)) / (N : ℤ) = 0 ↔ ¬ v < P := by
  constructor
  · intro h1 h2
    have := Int.ediv_neg_of_neg_of_pos (a := (0 : ℤ) + (v : ℤ) - (P : ℤ)) (b := (N : ℤ)) (by omega) (by omega)
    omega
  · intro h1
    exact Int.ediv_eq_zero_of_lt (by omega) (by omega)

theorem toList_ofList {v : ℕ} (h : v < 2 ^ 448) : limbsNat (BN.ofList (digits28 16 v)).toList = v := by
  rw [limbsNat_toList, limbsNat_ofList (digits28_length 16 v), limbsNat_digits28, Nat.mod_eq_of_lt]
  calc v < 2 ^ 448 := h
    _ = (2 ^ 28) ^ 16 := by rw [← pow_mul]

theorem scarry_iff {v : ℕ} (h : v < 2 ^ 448) : scarryLoop (BN.ofList (digits28 16 v)).toList MODULUS 0 = 0 ↔ ¬ v < p := by
  have e := borrow_iff (P := p) h
  have hl := toList_ofList h
  generalize hL : BN.ofList (digits28 16 v) = L at *
  have hs := scarryLoop_spec L.toList MODULUS 0 rfl
  rw [hl, limbsNat_MODULUS, show L.toList.length = 16 from rfl] at hs
  rw [hs, show ((2 : ℤ) ^ (28 * 16)) = ((2 ^ 448 : ℕ) : ℤ) from rfl]
  exact e

attribute [local irreducible] scarryLoop digits28 in
/-- The repaired comparison accepts the numbers below p. -/
theorem dsa_like_deserialize_spec (input : Arr Byte 57) :
    dsa_like_deserialize input = (BN.ofList (digits28 16 (leNat (input.1.take 56))), maskOf (decide (leNat (input.1.take 56) < p))) := by
  have hlt : leNat (input.1.take 56) < 2 ^ 448 := by
    have := leNat_lt (input.1.take 56)
    rw [List.length_take, input.2] at this
    calc _ < _ := this
      _ = _ := by norm_num
  have e := scarry_iff hlt
  unfold dsa_like_deserialize
  rw [Ed448.dsa_like_deserialize_spec]
  generalize leNat (input.1.take 56) = v at *
  dsimp only
  by_cases h : v < p
  · rw [if_neg (fun h' => (e.mp h') h), decide_eq_true h]
    rfl
  · rw [if_pos (e.mpr h), decide_eq_false h]
    rfl

/-! ### Decoding -/

attribute [local irreducible] is_zero_mask decodeRoot decodeIsogeny decodeFinish dsa_like_deserialize decaf_equal

theorem decode57_spec (b : Arr Byte 57) : ∃ x y : BN, x.Red ∧ y.Red ∧ y.toF = (yNat b.1 : F) ∧ x.toF = -xChoice (yNat b.1) (signBit b.1) ∧
    eddsaDecode57 b = decodeFinish (decodeIsogeny x y) (maskOf (padBits b.1 == 0 && decide (yNat b.1 < p) &&
      !(signBit b.1 == 1 && decide (x.toF = 0)))) := by
  have hb : b.1[56]'(by rw [b.2]; norm_num) = BitVec.ofFin (b.1.getD 56 0).toFin := by
    rw [List.getD_eq_getElem?_getD, List.getElem?_eq_getElem (by rw [b.2]; norm_num)]
    rfl
  obtain ⟨m1, m2⟩ := byteMasks (b.1.getD 56 0).toFin
  rw [← hb] at m1 m2
  have hY := digits28_red (yNat b.1)
  have hYF := digits28_toF (yNat_lt b.2)
  obtain ⟨x, x1, x2, x3⟩ := decodeRoot_spec hY (signBit_lt b.1)
  rw [hYF] at x3
  refine ⟨x, _, x2, hY, hYF, x3, ?_⟩
  unfold eddsaDecode57
  dsimp only
  have htake : leNat (List.take 56 (b.1.set 56 (b.1[56]'(by rw [b.2]; norm_num) &&&
      (~~~(@OfNat.ofNat (BitVec 32) 0x80 BitVec.instOfNat)).setWidth 8))) = yNat b.1 := by
    rw [yNat, List.take_set_of_le (le_refl _)]
  rw [m1, m2, dsa_like_deserialize_spec]
  dsimp only
  rw [htake, maskOf_and]
  change (decodeRoot (BN.ofList (digits28 16 (yNat b.1))) (maskOf (signBit b.1 == 1)) >>= _) = _
  rw [x1, bind_ok, decaf_equal_spec x2 red_zero, toF_zero]
  change decodeFinish _ (_ &&& ~~~(maskOf (signBit b.1 == 1) &&& _)) = _
  rw [maskOf_and, maskOf_not, maskOf_and]
  rfl

theorem ite_checks {α : Type} (a b c : Prop) [Decidable a] [Decidable b] [Decidable c] (ok : Bool) (X Y : α) :
    (if (!(decide a && decide b && !decide c) || !ok) = true then X else Y) = if a ∧ b ∧ ¬ c ∧ ok = true then Y else X := by
  by_cases h1 : a <;> by_cases h2 : b <;> by_cases h3 : c <;> cases ok <;> simp [h1, h2, h3]

theorem decodeFinish_spec {P : Pt} (hP : P.Red) (ok : Bool) :
    decodeFinish P (maskOf ok) = if P.x.toF * P.y.toF - P.z.toF * P.t.toF = 0 ∧
      P.y.toF ^ 2 - P.x.toF ^ 2 - (P.z.toF ^ 2 - (1 - edD) * P.t.toF ^ 2) = 0 ∧ ¬ P.z.toF = 0 ∧ ok = true then
        (P.point_scalar_mul quarterScalar >>= fun p => pure (.ok p)) else .ok (.error .DecodeError) := by
  unfold decodeFinish
  dsimp only
  rw [is_on_curve_spec hP, bind_ok, maskOf_eq_zero, ite_checks]
  rfl

/-- The equation of the isogenous curve for the image of (x, y) is the equation of the curve for (x, y). -/
theorem imageDefect_eq (x y : F) : imageDefect x y = 4 * (x ^ 2 + y ^ 2) ^ 2 * (x ^ 2 + y ^ 2 - (1 + edD * x ^ 2 * y ^ 2)) := by
  unfold imageDefect
  ring

theorem on_of_image {x y : F} (h1 : imageDefect x y = 0) (h2 : imageZ x y ≠ 0) : x ^ 2 + y ^ 2 = 1 + edD * x ^ 2 * y ^ 2 := by
  rw [imageDefect_eq] at h1
  rcases mul_eq_zero.mp h1 with h3 | h3
  · exfalso
    have h4 : x ^ 2 + y ^ 2 = 0 := by
      rcases mul_eq_zero.mp h3 with h5 | h5
      · exfalso
        exact F_two_ne_zero (pow_eq_zero_iff (two_ne_zero) |>.mp (show (2 : F) ^ 2 = 0 by linear_combination h5))
      · exact pow_eq_zero_iff (two_ne_zero) |>.mp h5
    by_cases hy : y = 0
    · apply h2
      rw [hy] at h4
      have hx : x = 0 := pow_eq_zero_iff (two_ne_zero) |>.mp (show x ^ 2 = 0 by linear_combination h4)
      rw [imageZ, hx, hy]
      ring
    · exact sq_add_sq_ne_zero (inferInstance : IsogenyCoeff edD).neg_one hy h4
  · linear_combination h3

theorem imageZ_ne_zero (A : E) : imageZ A.x A.y ≠ 0 := by
  have n1 := A.phi_den_x
  have n2 := A.phi_den_y
  refine mul_ne_zero ?_ ?_
  · intro h; apply n1; linear_combination -h
  · intro h; apply n2; linear_combination h

theorem decode_length {b : List Byte} (h : b.length ≠ 57) : eddsa_like_decode b = .ok (.error .InvalidLengthError) := by
  unfold eddsa_like_decode
  rw [dif_neg h]
  rfl

/-- The repaired decoder accepts exactly the strings that RFC 8032 decodes. -/
theorem decode_cases {b : List Byte} (hb : b.length = 57) :
    (∃ A P, RFC.DecodesTo b A ∧ eddsa_like_decode b = .ok (.ok P) ∧ RepT P (recoded quarterScalar • A)) ∨
    ((¬ ∃ A, RFC.DecodesTo b A) ∧ eddsa_like_decode b = .ok (.error .DecodeError)) := by
  obtain ⟨x, y, hx, hy, y1, x1, e⟩ := decode57_spec ⟨b, hb⟩
  obtain ⟨r, dx, dy, dz, dt⟩ := decodeIsogeny_spec hx hy
  have e2 : eddsa_like_decode b = eddsaDecode57 ⟨b, hb⟩ := by
    unfold eddsa_like_decode
    rw [dif_pos hb]
  dsimp only at e y1 x1
  rw [e2, e, decodeFinish_spec r]
  have f1 : (decodeIsogeny x y).x.toF * (decodeIsogeny x y).y.toF - (decodeIsogeny x y).z.toF * (decodeIsogeny x y).t.toF = 0 := by
    rw [dx, dy, dz, dt]; ring
  have f2 : (decodeIsogeny x y).y.toF ^ 2 - (decodeIsogeny x y).x.toF ^ 2 -
      ((decodeIsogeny x y).z.toF ^ 2 - (1 - edD) * (decodeIsogeny x y).t.toF ^ 2) = imageDefect (xChoice (yNat b) (signBit b)) (yNat b) := by
    rw [dx, dy, dz, dt, imageDefect, y1, x1]
    ring
  have f3 : (decodeIsogeny x y).z.toF = imageZ (xChoice (yNat b) (signBit b)) (yNat b) := by
    rw [dz, imageZ, y1, x1, neg_sq]
  rw [f1, f2, f3]
  have hx0 : x.toF = 0 ↔ xChoice (yNat b) (signBit b) = 0 := by rw [x1, neg_eq_zero]
  have hpar := xChoice_parity (yNat b) (signBit_lt b)
  have hlt := signBit_lt b
  have hA : ((0 : F) = 0 ∧ imageDefect (xChoice (yNat b) (signBit b)) (yNat b) = 0 ∧ ¬ imageZ (xChoice (yNat b) (signBit b)) (yNat b) = 0 ∧
      (padBits b == 0 && decide (yNat b < p) && !(signBit b == 1 && decide (x.toF = 0))) = true) ↔ ∃ A, RFC.DecodesTo b A := by
    simp only [Bool.and_eq_true, beq_iff_eq, decide_eq_true_iff, Bool.not_eq_true', Bool.and_eq_false_iff, beq_eq_false_iff_ne,
      decide_eq_false_iff_not, hx0]
    constructor
    · rintro ⟨_, h1, h2, ⟨h3, h4⟩, h5⟩
      refine ⟨⟨xChoice (yNat b) (signBit b), (yNat b : F), ?_⟩, hb, h3, h4, rfl, ?_⟩
      · exact on_of_image h1 h2
      · rcases hpar with h | h
        · dsimp only
          rw [h, ZMod.val_zero]
          rcases h5 with h6 | h6
          · omega
          · exact absurd h h6
        · exact h
    · rintro ⟨A, _, h3, h4, h5, h6⟩
      have hd : Decodes b A := ⟨h5, Or.inr h6⟩
      rw [hd.choice, ← h5]
      refine ⟨trivial, ?_, imageZ_ne_zero A, ⟨h3, h4⟩, ?_⟩
      · rw [imageDefect_eq, A.on]
        ring
      · by_cases h7 : A.x = 0
        · left
          rw [h7, ZMod.val_zero] at h6
          omega
        · exact Or.inr h7
  by_cases h : ∃ A, RFC.DecodesTo b A
  · left
    rw [if_pos (hA.mpr h)]
    obtain ⟨A, hd⟩ := h
    have hd' : Decodes b A := ⟨hd.2.2.2.1, Or.inr hd.2.2.2.2⟩
    obtain ⟨P, p1, p2⟩ := point_scalar_mul_rep (decodeIsogeny_rep hx hy (A := A) (by rw [y1, hd'.1]) (by rw [x1, ← hd'.choice])) quarterScalar
    refine ⟨A, P, hd, ?_, p2⟩
    rw [p1, bind_ok]
    rfl
  · right
    refine ⟨h, ?_⟩
    rw [if_neg (fun h' => h (hA.mp h'))]

/-! ### Verification -/

attribute [local irreducible] Pt.point_scalar_mul eddsa_like_decode Pt.point_double_scalamul_non_secret decode_long hash_with_dom scalarSub mod_equal
  scalarEncode

theorem verifyPoints_spec (xof : Xof) (pk : List Byte) {p p2 r : Pt} {A R : E} (hA : RepT p (recoded quarterScalar • A))
    (h2 : p.point_scalar_mul SCALAR_FOUR = .ok p2) (hR : RepT r (recoded quarterScalar • R)) (sig1 sig2 : Arr Byte 57) (m : List Byte) :
    ∃ P Q, verifyPoints xof pk p2 r sig1 sig2 m = .ok (P, Q) ∧ P.Red ∧ Q.Red ∧
      (cross P Q = 0 ↔ RFC.Equation (leNat sig2.1) R A (RFC.challenge xof sig1.1 pk m)) := by
  have hlt : ∀ b, (decode_long b).val < q := fun b => by rw [decode_long_val]; exact Nat.mod_lt _ q_pos
  have hz : SCALAR_ZERO.val < q := by rw [SCALAR_ZERO_val]; exact q_pos
  have hn := scalarSub_val SCALAR_ZERO (decode_long (hash_with_dom xof (sig1.1 ++ pk ++ m) 114).1) hz (hlt _)
  rw [SCALAR_ZERO_val, decode_long_val] at hn
  have hnlt : (scalarSub SCALAR_ZERO (decode_long (hash_with_dom xof (sig1.1 ++ pk ++ m) 114).1)).val < q := by
    rw [hn]; exact Nat.mod_lt _ q_pos
  obtain ⟨P, P1, P2⟩ := point_scalar_mul_rep hR SCALAR_FOUR
  obtain ⟨p2', p3, p4⟩ := point_scalar_mul_rep hA SCALAR_FOUR
  rw [h2] at p3
  injection p3 with p3
  rw [← p3] at p4
  obtain ⟨Q, Q1, Q2⟩ := double_mul_rep p4 (hlt sig2.1) hnlt
  refine ⟨P, Q, ?_, P2.1, Q2.1, ?_⟩
  · unfold verifyPoints
    rw [P1, bind_ok]
    dsimp only
    rw [Q1, bind_ok]
    rfl
  · rw [cross, mod_equal_rep P2.rep Q2]
    have e1 : leNat (hash_with_dom xof (sig1.1 ++ pk ++ m) 114).1 = RFC.challenge xof sig1.1 pk m := by
      rw [hash_with_dom_eq, RFC.challenge, List.append_assoc, List.append_assoc, List.append_assoc]
    rw [e1] at hn
    exact equation_iff (decode_long_val sig2.1) hn

/-- The repaired test of the second half: it is a number below q. -/
theorem reduced_iff (b : Arr Byte 57) : (scalarEncode (decode_long b.1)).1 = b.1 ↔ leNat b.1 < q := by
  rw [scalarEncode_val, decode_long_val]
  have hlt : ∀ n, n % q < 256 ^ 57 := fun n => by
    have := Nat.mod_lt n q_pos
    have := q_lt
    omega
  constructor
  · intro h
    have h1 := congrArg leNat h
    rw [leNat_leBytes, Nat.mod_eq_of_lt (hlt _)] at h1
    rw [← h1]
    exact Nat.mod_lt _ q_pos
  · intro h
    rw [Nat.mod_eq_of_lt h]
    have := leBytes_leNat b.1
    rw [b.2] at this
    exact this

/-- All cases of the repaired verification. -/
theorem dsa_verify_cases (xof : Xof) (pk sig m : List Byte) :
    (pk.length ≠ 57 ∧ dsa_verify xof pk sig m = .ok (.error .InvalidPubkeyLengthError)) ∨
    (pk.length = 57 ∧ (¬ ∃ A, RFC.DecodesTo pk A) ∧ dsa_verify xof pk sig m = .ok (.error .DecodePubkeyError)) ∨
    (∃ A, RFC.DecodesTo pk A ∧
      ((sig.length ≠ 114 ∧ dsa_verify xof pk sig m = .ok (.error .InvalidSignatureLengthError)) ∨
      (sig.length = 114 ∧ (¬ ∃ R, RFC.DecodesTo (sig.take 57) R) ∧ dsa_verify xof pk sig m = .ok (.error .DecodeSignatureError)) ∨
      (sig.length = 114 ∧ ∃ R r, RFC.DecodesTo (sig.take 57) R ∧ dsa_verify xof pk sig m = .ok (.ok r) ∧
        (r = true ↔ leNat (sig.drop 57) < q ∧ RFC.Equation (leNat (sig.drop 57)) R A (RFC.challenge xof (sig.take 57) pk m))))) := by
  by_cases hl : pk.length = 57
  swap
  · left
    refine ⟨hl, ?_⟩
    unfold dsa_verify
    rw [decode_length hl, bind_ok]
    rfl
  right
  rcases decode_cases hl with ⟨A, p, ha, p1, p2⟩ | ⟨ha, hd⟩
  swap
  · left
    refine ⟨hl, ha, ?_⟩
    unfold dsa_verify
    rw [hd, bind_ok]
    rfl
  right
  refine ⟨A, ha, ?_⟩
  obtain ⟨P2, g1, g2⟩ := point_scalar_mul_rep p2 SCALAR_FOUR
  by_cases hs : sig.length = 114
  swap
  · left
    refine ⟨hs, ?_⟩
    unfold dsa_verify
    rw [p1, bind_ok]
    dsimp only
    rw [g1, bind_ok, if_pos hs]
    rfl
  right
  obtain ⟨sig1, s1, s2⟩ := sliceArr_ok (l := sig) (lo := 0) (n := 57) (by omega)
  obtain ⟨sig2, t1, t2⟩ := sliceArr_ok (l := sig) (lo := 57) (n := 57) (by omega)
  rw [List.drop_zero] at s2
  rw [List.take_of_length_le (by rw [List.length_drop]; omega)] at t2
  have hstart : dsa_verify xof pk sig m = (do
    match ← eddsa_like_decode sig1.1 with
    | .error .InvalidLengthError => pure (.error .InvalidSignatureLengthError)
    | .error .DecodeError => pure (.error .DecodeSignatureError)
    | .error _ => .error .explicit
    | .ok r_point =>
      if (scalarEncode (decode_long sig2.1)).1 ≠ sig2.1 then pure (.ok false)
      else do
        let r ← verifyPoints xof pk P2 r_point sig1 sig2 m
        pure (.ok (mod_equal r.1 r.2))) := by
    unfold dsa_verify
    rw [p1, bind_ok]
    dsimp only
    rw [g1, bind_ok, if_neg (not_not.mpr hs), s1, bind_ok, t1, bind_ok]
    rfl
  rw [← s2, ← t2]
  rcases decode_cases sig1.2 with ⟨R, r, hr, r1, r2⟩ | ⟨hr, hd⟩
  swap
  · left
    refine ⟨hs, hr, ?_⟩
    rw [hstart, hd, bind_ok]
    rfl
  right
  by_cases hq : leNat sig2.1 < q
  · obtain ⟨P, Q, v1, v2, v3, v4⟩ := verifyPoints_spec xof pk p2 g1 r2 sig1 sig2 m
    refine ⟨hs, R, mod_equal P Q, hr, ?_, ?_⟩
    · rw [hstart, r1, bind_ok]
      dsimp only
      rw [if_neg (not_not.mpr ((reduced_iff sig2).mpr hq)), v1, bind_ok]
      rfl
    · rw [mod_equal_spec v2 v3, decide_eq_true_iff, v4]
      tauto
  · refine ⟨hs, R, false, hr, ?_, ?_⟩
    · rw [hstart, r1, bind_ok]
      dsimp only
      rw [if_pos (fun h => hq ((reduced_iff sig2).mp h))]
      rfl
    · simp [hq]

end Ed448.Repaired
