import Verif.Eddsa.RepairSet
import Verif.Properties.Binding
import Verif.Properties.Repaired

/-!
# C82: none of the six repairs can be left out

With all six repairs of `Model/Repaired.lean` verification is exactly that of RFC 8032 (C80). With any smaller choice it is not.
-/

set_option exponentiation.threshold 1000

namespace Ed448.Repairs

/-! ### Verification -/

attribute [local irreducible] Pt.point_scalar_mul eddsa_like_decode Pt.point_double_scalamul_non_secret Pt.eddsa_like_encode decode_long
  hash_with_dom scalarSub mod_equal scalarEncode verifyPoints

theorem verify_nonzero (f : Repairs) {pk sig : List Byte} (h : ¬ ZeroInput pk sig) (xof : Xof) (m : List Byte) :
    f.ed448_verify xof pk sig m = f.dsa_verify xof pk sig m := by
  unfold ZeroInput at h
  rw [ed448_verify, if_neg h]

theorem verify_bad_key (f : Repairs) (xof : Xof) (pk sig m : List Byte) (h : f.eddsa_like_decode pk = .ok (.error .DecodeError)) :
    f.dsa_verify xof pk sig m = .ok (.error .DecodePubkeyError) := by
  unfold dsa_verify
  rw [h, bind_ok]
  rfl

theorem verify_short (f : Repairs) (hf : f.sigLength = false) (xof : Xof) (pk sig m : List Byte) {p : Pt} (h : f.eddsa_like_decode pk = .ok (.ok p))
    (hp : p.Red) (hs : sig.length < 57) : f.dsa_verify xof pk sig m = .error .bounds := by
  obtain ⟨p2, g1, _⟩ := point_scalar_mul_red hp SCALAR_FOUR
  unfold dsa_verify
  rw [h, bind_ok]
  dsimp only
  rw [g1, bind_ok, if_neg (by rw [hf]; simp), sliceArr_err (by omega) (by norm_num), bind_err]

/-- If both strings are decoded and the other checks pass, the two points are compared. -/
theorem verify_compared (f : Repairs) (xof : Xof) (pk sig1 sig2 m : List Byte) {p p2 r P Q : Pt} (h1 : sig1.length = 57) (h2 : sig2.length = 57)
    (hp : f.eddsa_like_decode pk = .ok (.ok p)) (hp2 : p.point_scalar_mul SCALAR_FOUR = .ok p2) (hr : f.eddsa_like_decode sig1 = .ok (.ok r))
    (hq : f.range = true → leNat sig2 < q) (hv : f.verifyPoints xof pk p p2 r ⟨sig1, h1⟩ ⟨sig2, h2⟩ m = .ok (P, Q)) :
    f.dsa_verify xof pk (sig1 ++ sig2) m = .ok (.ok (f.mod_equal P Q)) := by
  obtain ⟨s1, s2⟩ := sliceArr_parts h1 h2
  unfold dsa_verify
  rw [hp, bind_ok]
  dsimp only
  rw [hp2, bind_ok, if_neg (by simp [h1, h2]), s1, bind_ok, s2, bind_ok]
  dsimp only
  rw [hr, bind_ok]
  dsimp only
  rw [if_neg, hv, bind_ok]
  · rfl
  · rintro ⟨hf, hne⟩
    exact hne ((Repaired.reduced_iff ⟨sig2, h2⟩).mpr (hq hf))

/-- A signature that satisfies the equation for the challenge in use is accepted, whatever repairs are chosen. -/
theorem verify_accept (f : Repairs) (xof : Xof) (pk sig1 sig2 m : List Byte) {p r : Pt} {A R : E} (h1 : sig1.length = 57) (h2 : sig2.length = 57)
    (hp : f.eddsa_like_decode pk = .ok (.ok p)) (hA : RepT p (recoded quarterScalar • A)) (hr : f.eddsa_like_decode sig1 = .ok (.ok r))
    (hR : RepT r (recoded quarterScalar • R)) (hq : f.range = true → leNat sig2 < q)
    (he : RFC.Equation (leNat sig2) R A (RFC.challenge xof sig1 (if f.keyHash then pk else encodePoint ((q + 1) • A)) m)) :
    f.dsa_verify xof pk (sig1 ++ sig2) m = .ok (.ok true) := by
  obtain ⟨p2, g1, g2⟩ := point_scalar_mul_red hA.1 SCALAR_FOUR
  have key : ∃ P Q, f.verifyPoints xof pk p p2 r ⟨sig1, h1⟩ ⟨sig2, h2⟩ m = .ok (P, Q) ∧ P.Red ∧ Q.Red ∧ cross P Q = 0 := by
    unfold verifyPoints
    cases hk : f.keyHash
    · rw [hk] at he
      rw [if_neg (by decide)] at he ⊢
      obtain ⟨P, Q, v1, v2, v3, v4⟩ := Ed448.verifyPoints_spec xof hA.1 g1 hR.1 ⟨sig1, h1⟩ ⟨sig2, h2⟩ m
      exact ⟨P, Q, v1, v2, v3, (v4 A R hA hR).mpr he⟩
    · rw [hk] at he
      rw [if_pos rfl] at he ⊢
      obtain ⟨P, Q, v1, v2, v3, v4⟩ := Repaired.verifyPoints_spec xof pk hA g1 hR ⟨sig1, h1⟩ ⟨sig2, h2⟩ m
      exact ⟨P, Q, v1, v2, v3, v4.mpr he⟩
  obtain ⟨P, Q, v1, v2, v3, v4⟩ := key
  rw [verify_compared f xof pk sig1 sig2 m h1 h2 hp g1 hr hq v1, mod_equal_of_cross f v2 v3 v4]

/-- The canonical encoding of a point is decoded, whatever repairs are chosen, if the existing code accepts it. -/
theorem decode_point (f : Repairs) (A : E) (h : Accepted (encodePoint A)) (hs : signBit (encodePoint A) = 1 → ¬ LowZero (-A.x)) :
    ∃ P, f.eddsa_like_decode (encodePoint A) = .ok (.ok P) ∧ RepT P (recoded quarterScalar • A) := by
  have hd := decodes_encode A
  have g : imageDefect (xCand (yNat (encodePoint A))) (yNat (encodePoint A)) = 0 := by
    have h1 := xCand_sq A
    rw [hd.1] at h1
    have e : imageDefect (xCand (yNat (encodePoint A))) (yNat (encodePoint A)) = imageDefect A.x A.y := by
      unfold imageDefect
      simp only [mul_pow, h1, hd.1]
    rw [e, Repaired.imageDefect_eq, A.on]
    ring
  obtain ⟨P, p1, _, p3⟩ := decode_ok f h (by rw [yNat_encode]; exact ZMod.val_lt _) (fun _ => g) (fun _ h1 => by rw [hd.choice]; exact hs h1)
  exact ⟨P, p1, p3 A hd⟩

theorem decode_zero (f : Repairs) : ∃ P, f.eddsa_like_decode (encodePoint 0) = .ok (.ok P) ∧ RepT P (recoded quarterScalar • (0 : E)) :=
  decode_point f 0 Witness.zero_accepted (fun h => by
    rw [signBit_encode, Edw.zero_x, ZMod.val_zero] at h
    cases h)

theorem decode_B (f : Repairs) : ∃ P, f.eddsa_like_decode (encodePoint B) = .ok (.ok P) ∧ RepT P (recoded quarterScalar • B) :=
  decode_point f B Witness.B_accepted (fun h => by
    rw [signBit_encode, Witness.B_coords.1, val_cast_lt (by decide +kernel)] at h
    exact absurd h (by decide +kernel))

theorem decode_B_T2 (f : Repairs) : ∃ P, f.eddsa_like_decode (encodePoint (1 • B + T2)) = .ok (.ok P) ∧
    RepT P (recoded quarterScalar • (1 • B + T2)) := by
  refine decode_point f _ ?_ (fun _ => ?_)
  · rw [accepted_of_coords Witness.B_T2_coords.1 Witness.B_T2_coords.2 (by decide +kernel)]
    decide +kernel
  · have e : -(1 • B + T2).x = ((pB.1 : ℕ) : F) := by
      rw [Witness.B_T2_coords.1]
      have e1 := cast_eq_of_mod (a := pN - pB.1 + pB.1) (b := 0) (by decide +kernel)
      rw [Nat.cast_add, Nat.cast_zero] at e1
      linear_combination -e1
    rw [e, lowZero_cast]
    decide +kernel

/-- Verification is that of RFC 8032, except for the all-zero key and the all-zero signature, and never panics. -/
def Exact (f : Repairs) : Prop :=
  ∀ xof pk sig m, (f.ed448_verify xof pk sig m = .ok (.ok true) ↔ ¬ ZeroInput pk sig ∧ RFC.Valid xof pk m sig) ∧
    ∃ r, f.ed448_verify xof pk sig m = .ok r

theorem nonzero_of_take {pk sig1 sig2 : List Byte} (h : pk ≠ List.replicate 57 0) (h1 : sig1.length = 57) (h2 : sig1 ≠ List.replicate 57 0) :
    ¬ ZeroInput pk (sig1 ++ sig2) := by
  rintro (h3 | h3)
  · exact h h3
  · have h4 := congrArg (List.take 57) h3
    rw [List.take_left' h1] at h4
    exact h2 (h4.trans (by simp))

theorem zero_ne : encodePoint 0 ≠ List.replicate 57 0 := by
  have := encode_smul_B_ne_zero 0
  rwa [zero_smul] at this

theorem B_ne : encodePoint B ≠ List.replicate 57 0 := by
  have := encode_smul_B_ne_zero 1
  rwa [one_smul] at this

/-- Without repair 1 a signature is accepted under a string that is not the encoding of a point. -/
theorem not_exact_limb15 (f : Repairs) (h : f.limb15 = false) : ¬ f.Exact := by
  intro he
  have hl : (encodePoint 0).length = 57 := encodePoint_length 0
  have hz : ¬ ZeroInput Witness.offKey (encodePoint 0 ++ List.replicate 57 0) := nonzero_of_take (by decide +kernel) hl zero_ne
  obtain ⟨p, p1, p2, _⟩ := decode_ok f Witness.offKey_accepted (by rw [Witness.offKey_y, ← pN_eq]; decide +kernel) (fun h' => by rw [h] at h'; cases h')
    (fun _ h' => absurd h' (by decide +kernel))
  obtain ⟨r, r1, r2⟩ := decode_zero f
  obtain ⟨p2', g1, g2⟩ := point_scalar_mul_red p2 SCALAR_FOUR
  obtain ⟨P, g3, g4⟩ := point_scalar_mul_rep r2 SCALAR_FOUR
  have d1 : decode_long (List.replicate 57 (0 : Byte)) = SCALAR_ZERO := decode_long_zero (leNat_replicate_zero 57)
  have d2 : ∀ s, decode_long (hash_with_dom Witness.zeroXof s 114).1 = SCALAR_ZERO := fun s =>
    decode_long_zero (by rw [hash_with_dom_eq]; exact Witness.zeroXof_hash _ _)
  have hv : f.verifyPoints Witness.zeroXof Witness.offKey p p2' r ⟨encodePoint 0, hl⟩ ⟨List.replicate 57 0, by simp⟩ [] = .ok (P, Pt.identity) := by
    unfold verifyPoints
    cases f.keyHash
    · rw [if_neg (by decide)]
      unfold Ed448.verifyPoints
      rw [g3, bind_ok]
      dsimp only
      rw [d1, d2, scalarSub_zero, double_mul_zero g2, bind_ok]
      rfl
    · rw [if_pos rfl]
      unfold Repaired.verifyPoints
      rw [g3, bind_ok]
      dsimp only
      rw [d1, d2, scalarSub_zero, double_mul_zero g2, bind_ok]
      rfl
  have hx : cross P Pt.identity = 0 := by
    rw [cross, mod_equal_rep g4.rep identity_rep.rep, smul_zero, smul_zero]
  have hacc := verify_compared f Witness.zeroXof Witness.offKey (encodePoint 0) (List.replicate 57 0) [] hl (by simp) p1 g1 r1 (fun _ => lt_of_eq_of_lt (leNat_replicate_zero 57) q_pos) hv
  rw [mod_equal_of_cross f g4.1 identity_rep.1 hx, ← verify_nonzero f hz] at hacc
  obtain ⟨_, _, A, _, hA, _⟩ := (he _ _ _ _).1.mp hacc
  exact Witness.off_not_point ⟨A, by rw [hA.2.2.2.1, Witness.offKey_y]⟩

/-- Without repair 2 a valid signature is rejected. -/
theorem not_exact_modulus (f : Repairs) (h : f.modulus = false) : ¬ f.Exact := by
  intro he
  obtain ⟨A, sig, h1, h2, h3⟩ := C80_roundtrip Witness.zeroXof Witness.badKey []
  obtain ⟨A', a1, a2⟩ := C03_derive_direct Witness.zeroXof Witness.badKey Witness.badKey_sign
  rw [h1] at a1
  injection a1 with a1
  subst a1
  have hv := (C80_exact _ _ _ _).1.mp h3
  have h4 := (he _ _ _ _).1.mpr hv
  rw [verify_nonzero f hv.1, verify_bad_key f] at h4
  · cases h4
  · refine decode_bad f A.2 ?_
    rw [h, a2, Witness.badKey_scalar, yNat_encode, Witness.bad_coords.2, val_cast_lt (by decide +kernel)]
    show ¬ PassesCheck _
    decide +kernel

/-- The neutral element with the sign bit set. -/
def minusZero : List Byte := 1 :: List.replicate 55 0 ++ [0x80]

/-- Without repair 3 a signature is accepted under the encoding of x = 0 with the sign bit set. -/
theorem not_exact_signOfZero (f : Repairs) (h : f.signOfZero = false) : ¬ f.Exact := by
  intro he
  have hl : (encodePoint B).length = 57 := encodePoint_length B
  obtain ⟨ha, hd⟩ := C32_sign_of_zero minusZero 0 rfl (by decide +kernel) Edw.zero_x (by
    rw [Edw.zero_y, show yNat minusZero = 1 by decide +kernel, Nat.cast_one])
  have g : imageDefect (xCand (yNat minusZero)) (yNat minusZero) = 0 := by
    have h1 := xCand_sq 0
    rw [hd.1] at h1
    have e : imageDefect (xCand (yNat minusZero)) (yNat minusZero) = imageDefect (0 : E).x (0 : E).y := by
      unfold imageDefect
      simp only [mul_pow, h1, hd.1]
    rw [e, Repaired.imageDefect_eq, (0 : E).on]
    ring
  obtain ⟨p, p1, _, p3⟩ := decode_ok f ha (by rw [show yNat minusZero = 1 by decide +kernel, ← pN_eq]; decide +kernel) (fun _ => g)
    (fun h' => by rw [h] at h'; cases h')
  obtain ⟨r, r1, r2⟩ := decode_B f
  have hacc := verify_accept f Witness.zeroXof minusZero (encodePoint B) (leBytes 57 1) [] hl (by simp) p1 (p3 0 hd) r1 r2
    (fun _ => by rw [leNat_leBytes, q_def]; decide +kernel)
    (by rw [leNat_leBytes, RFC.Equation, smul_zero, smul_zero, add_zero, show (1 : ℕ) % 256 ^ 57 = 1 by decide +kernel, one_smul])
  rw [← verify_nonzero f (nonzero_of_take (by decide +kernel) hl B_ne)] at hacc
  obtain ⟨_, _, A, _, hA, _⟩ := (he _ _ _ _).1.mp hacc
  have hA0 : A = 0 := Decodes.unique ⟨hA.2.2.2.1, Or.inr hA.2.2.2.2⟩ hd
  have h5 := hA.2.2.2.2
  rw [hA0, Edw.zero_x, ZMod.val_zero] at h5
  exact absurd h5 (by decide +kernel)

/-- Without repair 4 verification panics on the empty signature. -/
theorem not_exact_sigLength (f : Repairs) (h : f.sigLength = false) : ¬ f.Exact := by
  intro he
  obtain ⟨p, p1, p2⟩ := decode_zero f
  obtain ⟨r, hr⟩ := (he Witness.zeroXof (encodePoint 0) [] []).2
  rw [verify_nonzero f, verify_short f h _ _ _ _ p1 p2.1 (by simp)] at hr
  · cases hr
  · rintro (h | h)
    · exact zero_ne h
    · simp at h

/-- Without repair 5 a signature is accepted whose second half is `1 + q`. -/
theorem not_exact_range (f : Repairs) (h : f.range = false) : ¬ f.Exact := by
  intro he
  have hl : (encodePoint B).length = 57 := encodePoint_length B
  obtain ⟨p, p1, p2⟩ := decode_zero f
  obtain ⟨r, r1, r2⟩ := decode_B f
  have hS : leNat (leBytes 57 (1 + q)) = 1 + q := by
    rw [leNat_leBytes, q_def]
    decide +kernel
  have hacc := verify_accept f Witness.zeroXof (encodePoint 0) (encodePoint B) (leBytes 57 (1 + q)) [] hl (by simp) p1 p2 r1 r2
    (fun h' => by rw [h] at h'; cases h')
    (by rw [hS, RFC.Equation, smul_zero, smul_zero, add_zero, add_smul, q_smul_B, add_zero, one_smul])
  rw [← verify_nonzero f (nonzero_of_take zero_ne hl B_ne)] at hacc
  obtain ⟨_, _, A, _, _, _, hq, _⟩ := (he _ _ _ _).1.mp hacc
  rw [List.drop_left' hl, hS] at hq
  omega

/-- A hash that is one for one string and zero for all others. -/
noncomputable def oneAt (s : List Byte) : Xof := fun t i => if t = s ∧ i = 0 then 1 else 0

theorem oneAt_hash (s t : List Byte) : leNat (RFC.hash (oneAt s) t 114) = if t = s then 1 else 0 := by
  by_cases h : t = s
  · have e : RFC.hash (oneAt s) t 114 = RFC.hash Witness.oneXof t 114 := by
      apply List.ext_getElem
      · simp [RFC.hash]
      · intro i h1 h2
        simp [RFC.hash, oneAt, Witness.oneXof, h]
    rw [if_pos h, e, show RFC.hash Witness.oneXof t 114 = RFC.hash Witness.oneXof [] 114 from rfl]
    decide +kernel
  · have e : RFC.hash (oneAt s) t 114 = RFC.hash Witness.zeroXof t 114 := by
      apply List.ext_getElem
      · simp [RFC.hash]
      · intro i h1 h2
        simp [RFC.hash, oneAt, Witness.zeroXof, h]
    rw [if_neg h, e, Witness.zeroXof_hash]

/-- Without repair 6 a signature is accepted under a key with a small-order component for another challenge than that of RFC 8032. -/
theorem not_exact_keyHash (f : Repairs) (h : f.keyHash = false) : ¬ f.Exact := by
  intro he
  have hl : (encodePoint 0).length = 57 := encodePoint_length 0
  obtain ⟨p, p1, p2⟩ := decode_B_T2 f
  obtain ⟨r, r1, r2⟩ := decode_zero f
  have hT : 4 • T2 = 0 := by
    rw [show (4 : ℕ) = 2 * 2 from rfl, mul_smul, two_smul ℕ T2, T2_double, smul_zero]
  have hcl : (q + 1) • (1 • B + T2) = B := by
    rw [smul_add, cleared_torsion hT, add_zero, cleared_smul_B, one_smul]
  have hS : leNat (leBytes 57 1) = 1 := by
    rw [leNat_leBytes]
    decide +kernel
  have hc : ∀ pk, RFC.challenge (oneAt (RFC.dom4 ++ encodePoint 0 ++ encodePoint B ++ [])) (encodePoint 0) pk [] = if pk = encodePoint B then 1 else 0 := by
    intro pk
    rw [RFC.challenge, oneAt_hash]
    simp only [List.append_assoc, List.append_cancel_left_eq, List.append_nil]
  have hne : encodePoint (1 • B + T2) ≠ encodePoint B := by
    rw [Ne, encodePoint_inj, one_smul]
    intro h
    exact T2_ne_zero (by simpa using h)
  have hacc := verify_accept f (oneAt (RFC.dom4 ++ encodePoint 0 ++ encodePoint B ++ [])) (encodePoint (1 • B + T2)) (encodePoint 0) (leBytes 57 1) []
    hl (by simp) p1 p2 r1 r2 (fun _ => by rw [hS, q_def]; decide +kernel)
    (by rw [hS, h, if_neg (by decide), hcl, hc, if_pos rfl, RFC.Equation, one_smul, one_smul, smul_zero, zero_add, smul_add, hT, add_zero])
  have hz : encodePoint (1 • B + T2) ≠ List.replicate 57 0 := by
    rw [encode_of_coords Witness.B_T2_coords.1 Witness.B_T2_coords.2 (by decide +kernel) (by decide +kernel)]
    decide +kernel
  rw [← verify_nonzero f (nonzero_of_take hz hl zero_ne)] at hacc
  obtain ⟨_, _, A, R, hA, hR, _, heq⟩ := (he _ _ _ _).1.mp hacc
  rw [List.take_left' hl] at hR heq
  rw [decodesTo_unique hR (decodesTo_iff.mpr rfl), List.drop_left' hl, hS, hc, if_neg hne, RFC.Equation, zero_smul, smul_zero, add_zero] at heq
  exact four_smul_B_ne (n := 1) (by rw [one_smul]; exact B_ne_zero) heq

end Ed448.Repairs

namespace Ed448

/-- C82. Verification is that of RFC 8032 exactly if all six repairs are made. -/
theorem C82_minimal (f : Repairs) : f.Exact ↔ f = Repairs.all := by
  constructor
  · intro h
    obtain ⟨a, b, c, d, e, g⟩ := f
    cases a
    · exact absurd h (Repairs.not_exact_limb15 _ rfl)
    cases b
    · exact absurd h (Repairs.not_exact_modulus _ rfl)
    cases c
    · exact absurd h (Repairs.not_exact_signOfZero _ rfl)
    cases d
    · exact absurd h (Repairs.not_exact_sigLength _ rfl)
    cases e
    · exact absurd h (Repairs.not_exact_range _ rfl)
    cases g
    · exact absurd h (Repairs.not_exact_keyHash _ rfl)
    rfl
  · rintro rfl xof pk sig m
    rw [Repairs.verify_all]
    exact C80_exact xof pk sig m

/-- C82. The choice of no repair is the existing code, the choice of all repairs is the verifier of C80. -/
theorem C82_ends (xof : Xof) (pk sig m : List Byte) :
    Repairs.none.ed448_verify xof pk sig m = ed448_verify xof pk sig m ∧
      Repairs.all.ed448_verify xof pk sig m = Repaired.ed448_verify xof pk sig m :=
  ⟨Repairs.verify_none xof pk sig m, Repairs.verify_all xof pk sig m⟩

/-- Both sides of `C82_minimal` occur: no repair, and all but the first. -/
example : ¬ Repairs.none.Exact ∧ ¬ (⟨false, true, true, true, true, true⟩ : Repairs).Exact ∧ Repairs.all.Exact := by
  simp only [C82_minimal]
  decide

end Ed448
