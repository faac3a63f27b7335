import Verif.Properties.Decoding

/-!
# A string that is no encoding of a point and is accepted: C34, the refutation of C06; small-order keys: C42, C43
-/

set_option exponentiation.threshold 1000

namespace Ed448

/-- A number that is no y coordinate. -/
def Witness.offY : ℕ := 424263923994836351871231000605261970839909557210578013267793321051806320196796810850330105600530252874357680240554498597239475468879389

/-- The square of the x coordinate that the decoder computes for it. -/
def Witness.offS : ℕ := 227238383760264313752003225648884831810573863735583677074814428593464999757671830383963000117113975345343071450858593688361701256794668

/-- A square root of `-(1 - y²)(1 - d y²)`. -/
def Witness.offR : ℕ := 689421432416889237539767326379782534300934153314787666589910578212323590838035245404524139455614770707784981974082273030970435075403376

theorem Witness.off_root : (offR : F) ^ 2 = -((1 - (offY : F) ^ 2) * (1 - edD * (offY : F) ^ 2)) := by
  have h := cast_eq_of_mod (a := offR ^ 2 + (1 + (pN - offY ^ 2 % pN)) * (1 + 39081 * offY ^ 2)) (b := 0) (by decide +kernel)
  rw [Nat.cast_add, Nat.cast_mul, Nat.cast_add, cast_sub_mod] at h
  push_cast at h
  rw [edD]
  linear_combination h

theorem Witness.off_not_point : ¬ ∃ A : E, A.y = (offY : F) := by
  rintro ⟨A, hA⟩
  have hr := off_root
  have hne := one_sub_d_ne (offY : F)
  have hr0 : (offR : F) ≠ 0 := by
    have := cast_ne_of_mod (a := offR) (b := 0) (by decide +kernel)
    rwa [Nat.cast_zero] at this
  have on := A.on
  rw [hA] at on
  apply F_neg_one_nonsquare
  refine ⟨A.x * (1 - edD * (offY : F) ^ 2) / offR, ?_⟩
  field_simp
  generalize (offR : F) = r at *
  generalize (offY : F) = y at *
  linear_combination -hr - (1 - edD * y ^ 2) * on

theorem Witness.off_cand : xCand (offY : F) ^ 2 = (offS : F) := by
  have h := xCand_sq_off off_not_point
  have h2 := cast_eq_of_mod (a := offS * (1 + 39081 * offY ^ 2) + 1) (b := offY ^ 2) (by decide +kernel)
  push_cast at h2
  refine mul_right_cancel₀ (one_sub_d_ne (offY : F)) ?_
  rw [h, edD]
  linear_combination -h2

/-- `imageDefect` on numbers, from the squares of x and y. -/
def defectN (s w : ℕ) : ℕ :=
  let t := 2 + (pN - s % pN) + (pN - w % pN)
  let u := w + (pN - s % pN)
  (u * (s + w)) ^ 2 + (pN - 4 * s * w * t ^ 2 % pN) + (pN - (u * t) ^ 2 % pN) + 39082 * (4 * s * w * (s + w) ^ 2)

theorem imageDefect_cast {x y : F} {s w : ℕ} (hx : x ^ 2 = (s : F)) (hy : y ^ 2 = (w : F)) : imageDefect x y = ((defectN s w : ℕ) : F) := by
  unfold imageDefect defectN
  simp only [Nat.cast_add, cast_sub_mod, Nat.cast_mul, Nat.cast_pow, mul_pow, hx, hy, Nat.cast_ofNat, edD]
  ring

theorem imageZ_cast_sq {x y : F} {s w : ℕ} (hx : x ^ 2 = (s : F)) (hy : y ^ 2 = (w : F)) :
    imageZ x y = (((w + (pN - s % pN)) * (2 + (pN - s % pN) + (pN - w % pN)) : ℕ) : F) := by
  unfold imageZ
  simp only [Nat.cast_add, cast_sub_mod, Nat.cast_mul, hx, hy, Nat.cast_ofNat]
  ring

/-- The string. -/
def Witness.offKey : List Byte := leBytes 57 Witness.offY

theorem Witness.offKey_y : yNat offKey = offY := by decide +kernel

theorem Witness.offKey_accepted : Accepted offKey := by
  have hw : (offY : F) ^ 2 = ((offY ^ 2 : ℕ) : F) := by rw [Nat.cast_pow]
  refine ⟨by simp [offKey], by decide +kernel, by decide +kernel, ?_, ?_⟩
  · rw [offKey_y, imageDefect_cast off_cand hw, lowZero_cast]
    decide +kernel
  · rw [offKey_y, imageZ_cast_sq off_cand hw, lowZero_cast]
    decide +kernel

/-- C34. There is a string that the decoder accepts and that is not the encoding of a point, whatever the sign bit: its y is not the y
coordinate of any point. Verification under it never returns the error for keys that cannot be decoded. -/
theorem C34_nonpoint_accepted : ∃ b : List Byte, Accepted b ∧ (∃ P, eddsa_like_decode b = .ok (.ok P)) ∧ (¬ ∃ A : E, A.y = (yNat b : F)) ∧
    ∀ (xof : Xof) (sig m : List Byte), ed448_verify xof b sig m ≠ .ok (.error .DecodePubkeyError) := by
  refine ⟨Witness.offKey, Witness.offKey_accepted, ?_, by rw [Witness.offKey_y]; exact Witness.off_not_point, fun xof sig m h => ?_⟩
  swap
  · rcases (C08_errors _ _ _ _ _).mp h with h1 | h1 | h1 | h1
    · cases h1.2
    · cases h1.2.2
    · exact h1.2.2.1 Witness.offKey_accepted
    · cases h1.2.2.2.2
  rcases decode_cases (b := Witness.offKey) (by simp [Witness.offKey]) with ⟨_, P, h, _⟩ | ⟨h, _⟩
  · exact ⟨P, h⟩
  · exact absurd Witness.offKey_accepted h

/-! ### Refutation of C06 -/

/-- The recoding of zero has no digits. -/
def recodesToNil (n tb : ℕ) : Bool :=
  match recode_wnaf (List.replicate n ⟨0, 0⟩) SCALAR_ZERO tb with
  | .ok (c :: _) => c.power == -1 && c.addend == 0
  | _ => false

theorem recodesToNil_spec {n tb : ℕ} (h : recodesToNil n tb = true) :
    ∃ ctl, recode_wnaf (List.replicate n ⟨0, 0⟩) SCALAR_ZERO tb = .ok ctl ∧ idx ctl 0 = .ok ⟨-1, 0⟩ := by
  unfold recodesToNil at h
  split at h
  · next c cs e =>
    refine ⟨_, e, ?_⟩
    simp only [Bool.and_eq_true, beq_iff_eq] at h
    obtain ⟨c1, c2⟩ := c
    simp only at h
    rw [h.1, h.2]
    rfl
  · simp at h

theorem double_mul_zero {P : Pt} (h : P.Red) : P.point_double_scalamul_non_secret SCALAR_ZERO SCALAR_ZERO = .ok Pt.identity := by
  obtain ⟨c1, h1, h2⟩ := recodesToNil_spec (n := 77) (tb := 5) (by decide +kernel)
  obtain ⟨c2, h3, h4⟩ := recodesToNil_spec (n := 115) (tb := 3) (by decide +kernel)
  obtain ⟨l, l1, _⟩ := redSys.wnafTable (P := P) (A := ⟨⟩) h
  unfold Pt.point_double_scalamul_non_secret
  rw [h1, bind_ok, h3, bind_ok, l1, bind_ok, h4, bind_ok, h2, bind_ok]
  rfl

attribute [local irreducible] Pt.point_scalar_mul eddsa_like_decode Pt.point_double_scalamul_non_secret Pt.eddsa_like_encode decode_long
  hash_with_dom scalarSub Pt.mod_equal

/-- The hash that is always zero. -/
def Witness.zeroXof : Xof := fun _ _ => 0

theorem Witness.zeroXof_hash (m : List Byte) (n : ℕ) : leNat (RFC.hash zeroXof m n) = 0 := by
  have : RFC.hash zeroXof m n = List.replicate n 0 := by
    apply List.ext_getElem
    · simp [RFC.hash]
    · intro i h1 h2
      simp [RFC.hash, zeroXof]
  rw [this]
  exact leNat_replicate_zero n

theorem decode_long_zero {b : List Byte} (h : leNat b = 0) : decode_long b = SCALAR_ZERO := by
  apply Scalar.val_inj
  rw [decode_long_val, h, SCALAR_ZERO_val, Nat.zero_mod]

theorem scalarSub_zero : scalarSub SCALAR_ZERO SCALAR_ZERO = SCALAR_ZERO := by
  apply Scalar.val_inj
  have hz : SCALAR_ZERO.val < q := by rw [SCALAR_ZERO_val]; exact q_pos
  rw [scalarSub_val _ _ hz hz, SCALAR_ZERO_val, Nat.zero_add, Nat.sub_zero, Nat.mod_self]

/-- C06 is false: with the hash that is always zero, there are a key that is not the encoding of a point, and a signature that verifies under it for
every message. -/
theorem C06_refuted : ∃ (xof : Xof) (pk sig : List Byte), (¬ ∃ A : E, A.y = (yNat pk : F)) ∧
    ∀ m, ed448_verify xof pk sig m = .ok (.ok true) := by
  refine ⟨Witness.zeroXof, Witness.offKey, encodePoint 0 ++ List.replicate 57 0, by rw [Witness.offKey_y]; exact Witness.off_not_point, fun m => ?_⟩
  have hl : (encodePoint 0).length = 57 := encodePoint_length 0
  have hz : ¬ ZeroInput Witness.offKey (encodePoint 0 ++ List.replicate 57 0) := by
    rw [ZeroInput, Witness.zero_encode]
    decide +kernel
  rw [verify_nonzero hz]
  have htake : (encodePoint 0 ++ List.replicate 57 (0 : Byte)).take 57 = encodePoint 0 := List.take_left' hl
  have hdrop : ((encodePoint 0 ++ List.replicate 57 (0 : Byte)).drop 57).take 57 = List.replicate 57 0 := by
    rw [List.drop_left' hl, List.take_of_length_le (by simp)]
  rcases dsa_verify_cases Witness.zeroXof Witness.offKey (encodePoint 0 ++ List.replicate 57 0) m with
    ⟨h1, h2⟩ | ⟨h1, h2, h3⟩ | ⟨h1, h2, h3⟩ | ⟨h1, h2, h3, h4⟩ | ⟨h1, h2, h3, P, Q, hc, h4, h5⟩
  · exact absurd Witness.offKey_accepted.1 h1
  · exact absurd Witness.offKey_accepted h2
  · rw [List.length_append, hl, List.length_replicate] at h2
    omega
  · rw [htake] at h3
    exact absurd Witness.zero_accepted h3
  · obtain ⟨p, p2, r, sig1, sig2, c1, c2, c3, c4, c5, c6⟩ := hc
    obtain ⟨e1, e2⟩ := sliceArr_parts hl (List.length_replicate (n := 57) (a := (0 : Byte)))
    rw [c3] at e1
    rw [c4] at e2
    injection e1 with e1
    injection e2 with e2
    subst e1 e2
    have hp : p.Red := by
      rcases decode_cases (b := Witness.offKey) (by simp [Witness.offKey]) with ⟨_, p', g1, g2, _⟩ | ⟨g, _⟩
      · rw [c1] at g1
        injection g1 with g1
        injection g1 with g1
        rw [g1]
        exact g2
      · exact absurd Witness.offKey_accepted g
    have hp2 : p2.Red := by
      obtain ⟨p2', g1, g2⟩ := point_scalar_mul_red hp SCALAR_FOUR
      rw [c2] at g1
      injection g1 with g1
      rw [g1]
      exact g2
    have hr : RepT r (recoded quarterScalar • (0 : E)) := by
      rcases decode_cases hl with ⟨_, r', g1, _, g3⟩ | ⟨g, _⟩
      · rw [c5] at g1
        injection g1 with g1
        injection g1 with g1
        rw [g1]
        exact g3 0 (decodes_encode 0)
      · exact absurd Witness.zero_accepted g
    obtain ⟨P', g1, g2⟩ := point_scalar_mul_rep hr SCALAR_FOUR
    have hq : (P, Q) = (P', Pt.identity) := by
      unfold verifyPoints at c6
      rw [g1, bind_ok] at c6
      dsimp only at c6
      have d1 : decode_long (List.replicate 57 (0 : Byte)) = SCALAR_ZERO := decode_long_zero (leNat_replicate_zero 57)
      have d2 : ∀ s, decode_long (hash_with_dom Witness.zeroXof s 114).1 = SCALAR_ZERO := fun s =>
        decode_long_zero (by rw [hash_with_dom_eq]; exact Witness.zeroXof_hash _ _)
      rw [d1, d2, scalarSub_zero, double_mul_zero hp2, bind_ok] at c6
      injection c6 with c6
      exact c6.symm
    injection hq with hP hQ
    subst hP hQ
    have hx : cross P Pt.identity = 0 := by
      rw [cross, mod_equal_rep g2.rep identity_rep.rep, smul_zero, smul_zero]
    rw [h4, hx]
    simp [LowZero_zero]

/-! ### Small-order keys -/

/-- C42. Under a key that decodes to a point of order dividing 4 (such as the neutral element), anyone can sign any message: for every number s,
the encoding of `s B` followed by s is accepted, if the decoder accepts the encoding of `s B`. -/
theorem C42_small_order (xof : Xof) (pk m : List Byte) (T : E) (hT : 4 • T = 0) (hp : Accepted pk) (hd : Decodes pk T)
    (hz : pk ≠ List.replicate 57 0) (s : ℕ) (hs : s < 2 ^ 456) (hr : Accepted (encodePoint (s • B))) :
    ed448_verify xof pk (encodePoint (s • B) ++ leBytes 57 s) m = .ok (.ok true) := by
  have hl : (encodePoint (s • B)).length = 57 := encodePoint_length _
  have htake : (encodePoint (s • B) ++ leBytes 57 s).take 57 = encodePoint (s • B) := List.take_left' hl
  have hdrop : ((encodePoint (s • B) ++ leBytes 57 s).drop 57).take 57 = leBytes 57 s := by
    rw [List.drop_left' hl, List.take_of_length_le (by simp)]
  refine C07_complete xof pk _ m T (s • B) ?_ hp hd (by simp [hl]) (by rw [htake]; exact hr) (by rw [htake]; exact decodes_encode _) ?_
  · rintro (h | h)
    · exact hz h
    · have := congrArg (List.take 57) h
      rw [htake] at this
      exact encode_smul_B_ne_zero s (this.trans (by simp))
  · rw [hdrop, leNat_leBytes, Nat.mod_eq_of_lt (by norm_num; exact hs), RFC.Equation, smul_comm 4 _ T, hT, smul_zero, add_zero]

/-- The neutral element as key: its encoding is 1, 0, ..., 0. -/
example (xof : Xof) (m : List Byte) : ed448_verify xof (1 :: List.replicate 56 0) (encodePoint (2 ^ 447 • B) ++ leBytes 57 (2 ^ 447)) m = .ok (.ok true) := by
  rw [← Witness.zero_encode]
  refine C42_small_order xof _ m 0 (smul_zero _) Witness.zero_accepted (decodes_encode 0) ?_ _ (by norm_num) ?_
  · have := encode_smul_B_ne_zero 0
    rwa [zero_smul] at this
  · have := Witness.key0_accepted
    rwa [Witness.key0_scalar, RFC.publicOf] at this

/-- C43. Let T have order dividing 4. For accepted strings for `n B + T` and for `n B`, and a signature whose first half is accepted and
decodes to R, the results of verification are given by two comparisons, each of which is exact if and only if one and the same equation
holds, with the challenge computed from the encoding of `n B`. That the two results are equal also when
the equation does not hold is `C43_torsion`. -/
theorem C43_challenge (xof : Xof) (b b' sig m : List Byte) (n : ℕ) (T R : E) (hT : 4 • T = 0)
    (ha : Accepted b) (hb : Decodes b (n • B + T)) (ha' : Accepted b') (hb' : Decodes b' (n • B))
    (hz : ¬ ZeroInput b sig) (hz' : ¬ ZeroInput b' sig) (hl : 114 ≤ sig.length) (hr : Accepted (sig.take 57)) (hR : Decodes (sig.take 57) R) :
    ∃ P Q P' Q', Compared xof b sig m P Q ∧ Compared xof b' sig m P' Q' ∧
      ed448_verify xof b sig m = .ok (.ok (decide ((cross P Q).val % 2 ^ 420 = 0))) ∧
      ed448_verify xof b' sig m = .ok (.ok (decide ((cross P' Q').val % 2 ^ 420 = 0))) ∧
      (cross P Q = 0 ↔ RFC.Equation (leNat ((sig.drop 57).take 57)) R (n • B) (RFC.challenge xof (sig.take 57) (encodePoint (n • B)) m)) ∧
      (cross P' Q' = 0 ↔ RFC.Equation (leNat ((sig.drop 57).take 57)) R (n • B) (RFC.challenge xof (sig.take 57) (encodePoint (n • B)) m)) := by
  have key : ∀ (pk : List Byte) (A : E), Accepted pk → Decodes pk A → ¬ ZeroInput pk sig → ∃ P Q, Compared xof pk sig m P Q ∧
      ed448_verify xof pk sig m = .ok (.ok (decide ((cross P Q).val % 2 ^ 420 = 0))) ∧
      (cross P Q = 0 ↔ RFC.Equation (leNat ((sig.drop 57).take 57)) R A (RFC.challenge xof (sig.take 57) (encodePoint ((q + 1) • A)) m)) := by
    intro pk A h hd hz
    rw [verify_nonzero hz]
    rcases dsa_verify_cases xof pk sig m with ⟨h1, h2⟩ | ⟨h1, h2, h3⟩ | ⟨h1, h2, h3⟩ | ⟨h1, h2, h3, h4⟩ | ⟨h1, h2, h3, P, Q, hc, h4, h5⟩
    · exact absurd h.1 h1
    · exact absurd h h2
    · omega
    · exact absurd hr h3
    · exact ⟨P, Q, hc, h4, h5 A R hd hR⟩
  obtain ⟨P, Q, c1, c2, c3⟩ := key b _ ha hb hz
  obtain ⟨P', Q', d1, d2, d3⟩ := key b' _ ha' hb' hz'
  refine ⟨P, Q, P', Q', c1, d1, c2, d2, ?_, ?_⟩
  · rw [c3, smul_add, cleared_torsion hT, add_zero, cleared_smul_B]
    generalize RFC.challenge xof (sig.take 57) (encodePoint (n • B)) m = c
    rw [RFC.Equation, RFC.Equation, smul_comm 4 c, smul_add, hT, add_zero, smul_comm 4 c]
  · rw [d3, cleared_smul_B]

theorem Witness.B_T2_coords : (1 • B + T2).x = ((pN - pB.1 : ℕ) : F) ∧ (1 • B + T2).y = ((pN - pB.2.1 : ℕ) : F) := by
  have hx := Edw.add_x_mul (1 • B) T2
  have hy := Edw.add_y_mul (1 • B) T2
  have e1 := cast_eq_of_mod (a := pN - pB.1 + pB.1) (b := 0) (by decide +kernel)
  have e2 := cast_eq_of_mod (a := pN - pB.2.1 + pB.2.1) (b := 0) (by decide +kernel)
  rw [Nat.cast_add, ← Witness.B_coords.1, Nat.cast_zero] at e1
  rw [Nat.cast_add, ← Witness.B_coords.2, Nat.cast_zero] at e2
  have tx : T2.x = 0 := rfl
  have ty : T2.y = -1 := rfl
  rw [one_smul, tx, ty] at hx hy
  rw [one_smul]
  exact ⟨by linear_combination hx - e1, by linear_combination hy - e2⟩

/-- The key `B + T`, with T of order 2, and a signature whose first half encodes B. -/
example : 4 • T2 = 0 ∧ T2 ≠ 0 ∧ Accepted (encodePoint (1 • B + T2)) ∧ Decodes (encodePoint (1 • B + T2)) (1 • B + T2) ∧
    Accepted (encodePoint (1 • B)) ∧ Decodes (encodePoint (1 • B)) (1 • B) ∧
    ¬ ZeroInput (encodePoint (1 • B + T2)) (encodePoint B ++ leBytes 57 1) ∧ ¬ ZeroInput (encodePoint (1 • B)) (encodePoint B ++ leBytes 57 1) ∧
    114 ≤ (encodePoint B ++ leBytes 57 1).length ∧ Accepted ((encodePoint B ++ leBytes 57 1).take 57) ∧
    Decodes ((encodePoint B ++ leBytes 57 1).take 57) B := by
  have h1 : (encodePoint B ++ leBytes 57 1).take 57 = encodePoint B := List.take_left' (encodePoint_length B)
  have h2 : encodePoint B ++ leBytes 57 1 ≠ List.replicate 114 0 := by
    intro h
    have := congrArg (List.take 57) h
    rw [h1] at this
    refine encode_smul_B_ne_zero 1 ?_
    rw [one_smul]
    exact this.trans (by simp)
  refine ⟨?_, T2_ne_zero, ?_, decodes_encode _, ?_, decodes_encode _, ?_, ?_, by simp [encodePoint_length], ?_, ?_⟩
  · rw [show 4 = 2 * 2 from rfl, mul_smul, two_smul, two_smul, T2_double, add_zero]
  · rw [accepted_of_coords Witness.B_T2_coords.1 Witness.B_T2_coords.2 (by decide +kernel)]
    decide +kernel
  · rw [one_smul]
    exact Witness.B_accepted
  · rintro (h | h)
    · rw [encode_of_coords Witness.B_T2_coords.1 Witness.B_T2_coords.2 (by decide +kernel) (by decide +kernel)] at h
      exact absurd h (by decide +kernel)
    · exact h2 h
  · rintro (h | h)
    · exact encode_smul_B_ne_zero 1 h
    · exact h2 h
  · rw [h1]
    exact Witness.B_accepted
  · rw [h1]
    exact decodes_encode B

end Ed448
