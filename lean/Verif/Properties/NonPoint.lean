import Verif.Properties.AsIs

/-!
# C97: under every key there are accepted signatures whose first half is no point
-/

set_option exponentiation.threshold 1000

namespace Ed448

/-- A number that is no y coordinate. -/
def Witness.missY : ℕ := 108726714439909388346902821826702144250796500601716549399311489430935091683596816681991258443945796576240624347196416072287741622458480

/-- A square root of `-(1 - y²)(1 - d y²)`. -/
def Witness.missR : ℕ := 90932537443533279408649621791795052629877337727937932082091462780693374507007662860084041546137499087977700459423799952009629261587288

/-- Coordinates of a point of the curve. -/
def Witness.standX : ℕ := 572097619609977478279052678341395644243824122266753436856218330558861613462655258801722774426401577264122453053462599022721643009446801

def Witness.standY : ℕ := 371156681321942434783107341106213258626871972395273686190446878952238858320467902365008786075005952803444145363245557846984592286302005

/-- The string that encodes the number, with sign bit 0. -/
def nonPoint : List Byte := leBytes 57 Witness.missY

/-- The point that verification takes the string for. -/
def standIn : E := ⟨Witness.standX, Witness.standY, by
  have h := cast_eq_of_mod (a := Witness.standX ^ 2 + Witness.standY ^ 2 + 39081 * (Witness.standX ^ 2 * Witness.standY ^ 2)) (b := 1) (by decide +kernel)
  push_cast at h
  rw [edD]
  linear_combination h⟩

theorem nonPoint_length : nonPoint.length = 57 := leBytes_length _ _

theorem nonPoint_y : yNat nonPoint = Witness.missY := by decide +kernel

/-- No point has the y coordinate that the string describes. -/
theorem nonPoint_off : ¬ ∃ A : E, A.y = (yNat nonPoint : F) := by
  rw [nonPoint_y]
  rintro ⟨A, hA⟩
  have hr : (Witness.missR : F) ^ 2 = -((1 - (Witness.missY : F) ^ 2) * (1 - edD * (Witness.missY : F) ^ 2)) := by
    have h := cast_eq_of_mod (a := Witness.missR ^ 2 + (1 + (pN - Witness.missY ^ 2 % pN)) * (1 + 39081 * Witness.missY ^ 2)) (b := 0) (by decide +kernel)
    rw [Nat.cast_add, Nat.cast_mul, Nat.cast_add, cast_sub_mod] at h
    push_cast at h
    rw [edD]
    linear_combination h
  have hne := one_sub_d_ne (Witness.missY : F)
  have hr0 : (Witness.missR : F) ≠ 0 := by
    have := cast_ne_of_mod (a := Witness.missR) (b := 0) (by decide +kernel)
    rwa [Nat.cast_zero] at this
  have on := A.on
  rw [hA] at on
  apply F_neg_one_nonsquare
  refine ⟨A.x * (1 - edD * (Witness.missY : F) ^ 2) / Witness.missR, ?_⟩
  field_simp
  generalize (Witness.missR : F) = r at *
  generalize (Witness.missY : F) = y at *
  linear_combination -hr - (1 - edD * y ^ 2) * on

/-- Decode, multiply by 4 and compare with the quotient of the coordinates of the image of the point. -/
def standsIn (b : List Byte) (x y : ℕ) : Bool :=
  match Alg.decode (K := Alg.Zp) b with
  | .ok (.ok r) =>
    match r.mul SCALAR_FOUR with
    | .ok P => Nat.beq ((Alg.Num.val P.x * ((x ^ 2 + y ^ 2) * (x ^ 2 + (pN - y ^ 2 % pN)))) % pN)
        ((Alg.Num.val P.y * (2 * (x * y) * (2 + (pN - x ^ 2 % pN) + (pN - y ^ 2 % pN)))) % pN) && !Nat.beq (Alg.Num.val P.y % pN) (0 % pN)
    | _ => false
  | _ => false

theorem nonPoint_check : standsIn nonPoint Witness.standX Witness.standY = true := by decide +kernel

attribute [local irreducible] Pt.point_scalar_mul eddsa_like_decode Pt.point_double_scalamul_non_secret Pt.eddsa_like_encode decode_long
  hash_with_dom scalarSub Pt.mod_equal Alg.decode Alg.P4.mul nonPoint

theorem cast_val_Zp (a : Alg.Zp) : Alg.homZ.c a = ((Alg.Num.val a : ℕ) : F) := by
  rw [Alg.homZ.val, ZMod.natCast_zmod_val]

/-- Decoding the string and multiplying by 4 gives coordinates in the same ratio as those of the image of the point. -/
theorem nonPoint_spec : ∃ r P, eddsa_like_decode nonPoint = .ok (.ok r) ∧ r.point_scalar_mul SCALAR_FOUR = .ok P ∧
    P.x.toF * standIn.phiY = P.y.toF * standIn.phiX ∧ P.y.toF ≠ 0 := by
  have h := nonPoint_check
  unfold standsIn at h
  split at h
  swap
  · cases h
  next r e =>
  split at h
  swap
  · cases h
  next P e' =>
  rw [Bool.and_eq_true, Bool.not_eq_true'] at h
  obtain ⟨h1, h2⟩ := h
  rcases Alg.decode_sh Alg.homZ nonPoint with ⟨_, _, g⟩ | ⟨x, y, g1, g2, g3⟩
  · rw [e] at g
    cases g
  rw [e] at g2
  injection g2 with g2
  subst g2
  rcases x with x | x
  · exact g3.elim
  rcases Alg.mul_sh (h := Alg.homZ) g3 SCALAR_FOUR with ⟨_, _, g⟩ | ⟨x', y', k1, k2, k3⟩
  · rw [e'] at g
    cases g
  rw [e'] at k2
  injection k2 with k2
  subst k2
  refine ⟨x, x', g1, k1, ?_, ?_⟩
  · have hc := cast_eq_of_mod (Nat.eq_of_beq_eq_true h1)
    simp only [Nat.cast_add, cast_sub_mod, Nat.cast_mul, Nat.cast_pow, Nat.cast_ofNat] at hc
    rw [← cast_val_Zp, ← cast_val_Zp, ← k3.x, ← k3.y] at hc
    have d1 := standIn.phi_den_x
    have d2 := standIn.phi_den_y
    have m1 := standIn.phiX_mul
    have m2 := standIn.phiY_mul
    have ex : standIn.x = (Witness.standX : F) := rfl
    have ey : standIn.y = (Witness.standY : F) := rfl
    rw [ex, ey] at d1 d2 m1 m2
    generalize (Witness.standX : F) = a at *
    generalize (Witness.standY : F) = b at *
    generalize standIn.phiX = u at *
    generalize standIn.phiY = v at *
    refine mul_right_cancel₀ (mul_ne_zero d1 d2) ?_
    linear_combination (x'.x.toF * (a ^ 2 - b ^ 2)) * m2 - (x'.y.toF * (2 - a ^ 2 - b ^ 2)) * m1 + hc
  · have hc := cast_ne_of_mod (Nat.ne_of_beq_eq_false h2)
    rwa [← cast_val_Zp, ← k3.y, Nat.cast_zero] at hc

theorem nonPoint_accepted : Accepted nonPoint := by
  obtain ⟨r, _, h, _⟩ := nonPoint_spec
  rcases decode_cases nonPoint_length with ⟨h', _⟩ | ⟨_, h'⟩
  · exact h'
  · rw [h] at h'
    cases h'

theorem nonPoint_ne_zero : nonPoint ≠ List.replicate 57 0 := by
  intro h
  have := nonPoint_y
  rw [h] at this
  exact absurd this (by decide +kernel)

theorem nonPoint_taken : TakenFor nonPoint standIn := by
  obtain ⟨r, P, h1, h2, h3, h4⟩ := nonPoint_spec
  exact ⟨r, P, h1, h2, h4, h3⟩

/-- C97. Verification under a key that decodes to a point, of a signature whose first half is taken for the point `R`: the comparison at the end is
exact if and only if the equation of RFC 8032 holds for `R`. -/
theorem C97_equation (xof : Xof) (pk sig m : List Byte) (A R : E) (hp : Accepted pk) (hA : Decodes pk A) (hz : ¬ ZeroInput pk sig) (hl : 114 ≤ sig.length)
    (hs : TakenFor (sig.take 57) R) :
    ∃ P Q, Compared xof pk sig m P Q ∧ ed448_verify xof pk sig m = .ok (.ok (decide ((cross P Q).val % 2 ^ 420 = 0))) ∧
      (cross P Q = 0 ↔ RFC.Equation (leNat ((sig.drop 57).take 57)) R A (RFC.challenge xof (sig.take 57) (encodePoint ((q + 1) • A)) m)) := by
  obtain ⟨r, P, n1, n2, n3, n4⟩ := hs
  rw [verify_nonzero hz]
  rcases dsa_verify_cases xof pk sig m with ⟨h1, h2⟩ | ⟨h1, h2, h3⟩ | ⟨h1, h2, h3⟩ | ⟨h1, h2, h3, h4⟩ | ⟨h1, h2, h3, P', Q, hc, h4, h5⟩
  · exact absurd hp.1 h1
  · exact absurd hp h2
  · omega
  · rcases decode_cases (b := sig.take 57) (by rw [List.length_take]; omega) with ⟨h', _⟩ | ⟨_, h'⟩
    · exact absurd h' h3
    · rw [n1] at h'
      cases h'
  obtain ⟨⟨r', r1, r2⟩, D, hD, he⟩ := compared_spec hA hc
  obtain rfl : r = r' := Except.ok.inj (Except.ok.inj (n1.symm.trans r1))
  obtain rfl : P = P' := Except.ok.inj (n2.symm.trans r2)
  exact ⟨P, Q, hc, h4, (cross_ratio hD n4 n3).trans (he R)⟩

/-- The fourfold of every point is four times a multiple of the base point. -/
theorem four_log (A : E) : ∃ t < q, 4 • A = 4 • (t • B) := by
  obtain ⟨n, hn, e⟩ := four_mem_B A
  refine ⟨n * ((q + 1) / 4) % q, Nat.mod_lt _ q_pos, ?_⟩
  have h4 := q_mod_four
  rw [e, smul_smul, smul_B_inj, Nat.mul_mod_mod, show 4 * (n * ((q + 1) / 4)) = n * (4 * ((q + 1) / 4)) by ring, show 4 * ((q + 1) / 4) = q + 1 by omega,
    Nat.mul_add, mul_one, Nat.mul_add_mod']

theorem four_cancel {S n : ℕ} (hS : S < q) (h : 4 • (S • B) = 4 • (n • B)) : S = n % q := by
  rw [smul_smul, smul_smul, smul_B_inj] at h
  have hc : q.Coprime 4 := by
    have := q_mod_four
    rw [Nat.coprime_comm, show 4 = 2 ^ 2 from rfl]
    exact Nat.Coprime.pow_left 2 ((Nat.coprime_primes Nat.prime_two (Fact.out : q.Prime)).mpr (by omega))
  have := Nat.ModEq.cancel_left_of_coprime hc h
  rw [← Nat.mod_eq_of_lt hS]
  exact this

/-- C97. Under every public key that is accepted and decodes to a point, for every hash function and every message, there is a signature that is accepted although
its first half is not the encoding of a point. Its second half is below the group order. -/
theorem C97_exists (xof : Xof) (pk m : List Byte) (A : E) (hp : Accepted pk) (hA : Decodes pk A) (h0 : pk ≠ List.replicate 57 0) :
    ∃ sig : List Byte, sig.length = 114 ∧ leNat (sig.drop 57) < q ∧ ed448_verify xof pk sig m = .ok (.ok true) ∧
      (¬ ∃ R : E, R.y = (yNat (sig.take 57) : F)) ∧ ¬ RFC.Valid xof pk m sig ∧ TakenFor (sig.take 57) standIn ∧
      RFC.Equation (leNat (sig.drop 57)) standIn A (RFC.challenge xof (sig.take 57) (encodePoint ((q + 1) • A)) m) := by
  obtain ⟨S, hlt, e⟩ := four_log (standIn + RFC.challenge xof nonPoint (encodePoint ((q + 1) • A)) m • A)
  have hd : leNat (leBytes 57 S) = S := by
    rw [leNat_leBytes, Nat.mod_eq_of_lt]
    exact (hlt.trans q_lt).trans (by norm_num)
  have ht : (nonPoint ++ leBytes 57 S).take 57 = nonPoint := List.take_left' nonPoint_length
  have hr : (nonPoint ++ leBytes 57 S).drop 57 = leBytes 57 S := List.drop_left' nonPoint_length
  have hl : (nonPoint ++ leBytes 57 S).length = 114 := by simp [nonPoint_length]
  have hz : ¬ ZeroInput pk (nonPoint ++ leBytes 57 S) := Repairs.nonzero_of_take h0 nonPoint_length nonPoint_ne_zero
  obtain ⟨P, Q, _, h1, h2⟩ := C97_equation xof pk (nonPoint ++ leBytes 57 S) m A standIn hp hA hz hl.ge (by rw [ht]; exact nonPoint_taken)
  refine ⟨nonPoint ++ leBytes 57 S, hl, by rw [hr, hd]; exact hlt, ?_, by rw [ht]; exact nonPoint_off, ?_, by rw [ht]; exact nonPoint_taken, ?_⟩
  · rw [h1, h2.mpr]
    · simp
    · rw [ht, hr, List.take_of_length_le (by simp), hd, RFC.Equation, ← smul_add, e]
  · rintro ⟨_, _, R, _, hR, _⟩
    rw [ht] at hR
    exact nonPoint_off ⟨R, hR.2.2.2.1⟩
  · rw [ht, hr, hd, RFC.Equation, ← smul_add, e]

/-- C97. In particular there are such signatures under every derived key that is accepted, for every hash function and every message, and the first half is taken
for a point (so that they are no near misses, C96). The verifier with the repairs of C80 rejects them, and so does the one that has only the first repair. -/
theorem C97_derived (xof : Xof) (k pk : Arr Byte 57) (m : List Byte) (hk : ed448_derive_public xof k = .ok pk) (hp : Accepted pk.1) :
    ∃ sig : Arr Byte 114, ed448_verify xof pk.1 sig.1 m = .ok (.ok true) ∧ (∃ R, TakenFor (sig.1.take 57) R) ∧ ¬ NearMiss xof pk.1 m sig.1 ∧
      Repaired.ed448_verify xof pk.1 sig.1 m ≠ .ok (.ok true) ∧ Repairs.first.ed448_verify xof pk.1 sig.1 m ≠ .ok (.ok true) := by
  obtain ⟨pk', k1, k2⟩ := derive_spec xof k
  obtain rfl : pk = pk' := Except.ok.inj (hk.symm.trans k1)
  have h0 : pk.1 ≠ List.replicate 57 0 := by
    rw [k2]
    exact encode_smul_B_ne_zero _
  have hA : Decodes pk.1 (keyScalar xof k.1 • B) := by rw [k2]; exact decodes_encode _
  obtain ⟨sig, h1, _, h3, h4, h5, h6, h7⟩ := C97_exists xof pk.1 m _ hp hA h0
  have ha := C96_accepted xof k pk m sig hk h3
  refine ⟨⟨sig, h1⟩, h3, ⟨_, h6⟩, fun h => (ha.1.mp h) ?_, fun h => h5 ((C80_exact _ _ _ _).1.mp h).2, fun h => ?_⟩
  · refine ⟨h1.ge, _, _, decodesTo_iff.mpr k2, Or.inr h6, ?_⟩
    rw [cleared_smul_B, ← k2] at h7
    rw [List.take_of_length_le (by rw [List.length_drop]; omega)]
    exact h7
  · obtain ⟨_, _, R, _, hR, _⟩ := ha.2.mp h
    exact h4 ⟨R, hR.1⟩

/-- The discrete logarithm of the point, and with it every such signature: the number `t` is the same for all keys, hash functions and messages, and the second
half that makes the comparison exact is `t` plus the challenge times the secret. -/
theorem C97_log : ∃ t < q, 4 • standIn = 4 • (t • B) ∧ ∀ (xof : Xof) (k pk : Arr Byte 57) (m : List Byte) (S : ℕ), S < q →
    ed448_derive_public xof k = .ok pk → Accepted pk.1 → ∃ P Q, Compared xof pk.1 (nonPoint ++ leBytes 57 S) m P Q ∧
      (cross P Q = 0 ↔ S = (t + RFC.challenge xof nonPoint pk.1 m * keyScalar xof k.1) % q) := by
  obtain ⟨t, ht, e⟩ := four_log standIn
  refine ⟨t, ht, e, fun xof k pk m S hS hk hp => ?_⟩
  obtain ⟨pk', k1, k2⟩ := derive_spec xof k
  obtain rfl : pk = pk' := Except.ok.inj (hk.symm.trans k1)
  have h0 : pk.1 ≠ List.replicate 57 0 := by
    rw [k2]
    exact encode_smul_B_ne_zero _
  have hd : leNat (leBytes 57 S) = S := by
    rw [leNat_leBytes, Nat.mod_eq_of_lt]
    exact (hS.trans q_lt).trans (by norm_num)
  have hr : (nonPoint ++ leBytes 57 S).drop 57 = leBytes 57 S := List.drop_left' nonPoint_length
  have hl : (nonPoint ++ leBytes 57 S).length = 114 := by simp [nonPoint_length]
  have ht' : (nonPoint ++ leBytes 57 S).take 57 = nonPoint := List.take_left' nonPoint_length
  obtain ⟨P, Q, h1, _, h2⟩ := C97_equation xof pk.1 (nonPoint ++ leBytes 57 S) m (keyScalar xof k.1 • B) standIn hp (by rw [k2]; exact decodes_encode _)
    (Repairs.nonzero_of_take h0 nonPoint_length nonPoint_ne_zero) hl.ge (by rw [ht']; exact nonPoint_taken)
  refine ⟨P, Q, h1, ?_⟩
  rw [h2, ht', hr, List.take_of_length_le (by simp), hd, cleared_smul_B, ← k2, RFC.Equation, e]
  generalize RFC.challenge xof nonPoint pk.1 m = c
  generalize keyScalar xof k.1 = a
  rw [smul_smul c, ← smul_add, ← add_smul]
  constructor
  · exact four_cancel hS
  · intro h
    rw [h, smul_B_mod]

/-! ## Concrete cases -/

/-- The key of the crate's test of verification, with SHAKE256: every message has such a signature. -/
example (m : List Byte) : ∃ sig : List Byte, sig.length = 114 ∧ ed448_verify shake256 Vectors.testKey sig m = .ok (.ok true) ∧
    ¬ RFC.Valid shake256 Vectors.testKey m sig := by
  obtain ⟨sig, h1, _, h2, _, h3, _⟩ := C97_exists shake256 Vectors.testKey m _ (C06_sound_partial _ _ _ _ Vectors.test_verify).2.1
    (by rw [decodesTo_iff.mp Vectors.test_key]; exact decodes_encode _) (by decide +kernel)
  exact ⟨sig, h1, h2, h3⟩

/-- A key for every hash function. -/
example (xof : Xof) (m : List Byte) : ∃ (k pk : Arr Byte 57), ed448_derive_public xof k = .ok pk ∧ Accepted pk.1 ∧ ∃ sig, ed448_verify xof pk.1 sig m = .ok (.ok true) ∧ Repaired.ed448_verify xof pk.1 sig m ≠ .ok (.ok true) := by
  obtain ⟨A, a1, a2⟩ := C03_derive_direct xof Witness.key0 Witness.key0_sign
  have hp : Accepted A.1 := by rw [a2]; exact Witness.key0_accepted
  obtain ⟨sig, h, _, _, h', _⟩ := C97_derived xof Witness.key0 A m a1 hp
  exact ⟨Witness.key0, A, a1, hp, sig.1, h, h'⟩

end Ed448
