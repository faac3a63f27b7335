import Verif.Properties.LibraryForger
import Verif.Properties.RepairSet
import Verif.Spec.RepairSet

/-!
# C87: one repair is enough against forgers
-/

namespace Ed448.Repairs

set_option exponentiation.threshold 1000

/-! ## Decoding -/

attribute [local irreducible] is_zero_mask decodeRoot decodeIsogeny decodeFinish dsa_like_deserialize decaf_equal

theorem decode_cases (f : Repairs) (hf : f.limb15 = true) {b : List Byte} (hb : b.length = 57) :
    (∃ A P, f.Reads b A ∧ f.eddsa_like_decode b = .ok (.ok P) ∧ RepT P (recoded quarterScalar • A)) ∨
    ((¬ ∃ A, f.Reads b A) ∧ f.eddsa_like_decode b = .ok (.error .DecodeError)) := by
  obtain ⟨x, y, hx, hy, y1, x1, e⟩ := decode57_spec f ⟨b, hb⟩
  obtain ⟨r, dx, dy, dz, dt⟩ := decodeIsogeny_spec hx hy
  have e2 : f.eddsa_like_decode b = f.eddsaDecode57 ⟨b, hb⟩ := by
    unfold eddsa_like_decode
    rw [dif_pos hb]
  dsimp only at e y1 x1
  rw [e2, e, decodeFinish_spec f r]
  have f1 : (decodeIsogeny x y).x.toF * (decodeIsogeny x y).y.toF - (decodeIsogeny x y).z.toF * (decodeIsogeny x y).t.toF = 0 := by
    rw [dx, dy, dz, dt]; ring
  have f2 : (decodeIsogeny x y).y.toF ^ 2 - (decodeIsogeny x y).x.toF ^ 2 -
      ((decodeIsogeny x y).z.toF ^ 2 - (1 - edD) * (decodeIsogeny x y).t.toF ^ 2) = imageDefect (xChoice (yNat b) (signBit b)) (yNat b) := by
    rw [dx, dy, dz, dt, imageDefect, y1, x1]
    ring
  have f3 : (decodeIsogeny x y).z.toF = imageZ (xChoice (yNat b) (signBit b)) (yNat b) := by
    rw [dz, imageZ, y1, x1, neg_sq]
  rw [f1, f2, f3]
  have hx0 : x.toF = 0 ↔ xChoice (yNat b) (signBit b) = 0 := by rw [x1, neg_eq_zero]
  have hpar := xChoice_parity (yNat b) (signBit_lt b)
  have hlt := signBit_lt b
  have hZ : ∀ v, Z f.limb15 v ↔ v = 0 := fun v => by rw [hf]; exact Iff.rfl
  have hA : (Z f.limb15 0 ∧ Z f.limb15 (imageDefect (xChoice (yNat b) (signBit b)) (yNat b)) ∧ ¬ Z f.limb15 (imageZ (xChoice (yNat b) (signBit b)) (yNat b)) ∧
      (padBits b == 0 && decide (Chk f.modulus (yNat b)) && !(f.signOfZero && (signBit b == 1 && decide (Z f.limb15 x.toF)))) = true) ↔ ∃ A, f.Reads b A := by
    simp only [Bool.and_eq_true, beq_iff_eq, decide_eq_true_iff, Bool.not_eq_true', Bool.and_eq_false_iff, beq_eq_false_iff_ne,
      decide_eq_false_iff_not, hZ, hx0]
    constructor
    · rintro ⟨_, h1, h2, ⟨h3, h4⟩, h5⟩
      refine ⟨⟨xChoice (yNat b) (signBit b), (yNat b : F), ?_⟩, hb, h3, h4, ⟨rfl, hpar⟩, ?_⟩
      · exact Repaired.on_of_image h1 h2
      · intro h6 h7
        rcases h5 with h5 | h5 | h5
        · rw [h6] at h5; cases h5
        · omega
        · exact absurd h7 h5
    · rintro ⟨A, _, h3, h4, hd, h6⟩
      rw [hd.choice, ← hd.1]
      refine ⟨trivial, ?_, Repaired.imageZ_ne_zero A, ⟨h3, h4⟩, ?_⟩
      · rw [Repaired.imageDefect_eq, A.on]
        ring
      · cases hs : f.signOfZero
        · exact Or.inl rfl
        · right
          by_cases h7 : A.x = 0
          · left
            have := h6 hs h7
            omega
          · exact Or.inr h7
  by_cases h : ∃ A, f.Reads b A
  · left
    rw [if_pos (hA.mpr h)]
    obtain ⟨A, hd⟩ := h
    have hd' : Decodes b A := hd.2.2.2.1
    obtain ⟨P, p1, p2⟩ := point_scalar_mul_rep (decodeIsogeny_rep hx hy (A := A) (by rw [y1, hd'.1]) (by rw [x1, ← hd'.choice])) quarterScalar
    refine ⟨A, P, hd, ?_, p2⟩
    rw [p1, bind_ok]
    rfl
  · right
    refine ⟨h, ?_⟩
    rw [if_neg (fun h' => h (hA.mp h'))]

theorem Reads.unique {f : Repairs} {b : List Byte} {A C : E} (h : f.Reads b A) (h' : f.Reads b C) : A = C := h.2.2.2.1.unique h'.2.2.2.1

/-! ## Verification -/

attribute [local irreducible] Pt.point_scalar_mul eddsa_like_decode Pt.point_double_scalamul_non_secret Pt.eddsa_like_encode decode_long
  hash_with_dom scalarSub mod_equal scalarEncode verifyPoints

theorem verifyPoints_spec (f : Repairs) (xof : Xof) (pk : List Byte) {p p2 r : Pt} {A R : E} (hA : RepT p (recoded quarterScalar • A))
    (h2 : p.point_scalar_mul SCALAR_FOUR = .ok p2) (hR : RepT r (recoded quarterScalar • R)) (sig1 sig2 : Arr Byte 57) (m : List Byte) :
    ∃ P Q, f.verifyPoints xof pk p p2 r sig1 sig2 m = .ok (P, Q) ∧ P.Red ∧ Q.Red ∧ (cross P Q = 0 ↔
      RFC.Equation (leNat sig2.1) R A (RFC.challenge xof sig1.1 (if f.keyHash then pk else encodePoint ((q + 1) • A)) m)) := by
  unfold verifyPoints
  cases hk : f.keyHash
  · rw [if_neg (by decide), if_neg (by decide)]
    obtain ⟨P, Q, v1, v2, v3, v4⟩ := Ed448.verifyPoints_spec xof hA.1 h2 hR.1 sig1 sig2 m
    exact ⟨P, Q, v1, v2, v3, v4 A R hA hR⟩
  · rw [if_pos rfl, if_pos rfl]
    exact Repaired.verifyPoints_spec xof pk hA h2 hR sig1 sig2 m

theorem mod_equal_spec (f : Repairs) (hf : f.limb15 = true) {P Q : Pt} (hP : P.Red) (hQ : Q.Red) : f.mod_equal P Q = true ↔ cross P Q = 0 := by
  unfold mod_equal
  rw [hf, if_pos rfl, Repaired.mod_equal_spec hP hQ, decide_eq_true_iff]

/-- With the repair 1, verification is as specified. -/
theorem verify_iff (f : Repairs) (hf : f.limb15 = true) (xof : Xof) (pk sig m : List Byte) :
    f.dsa_verify xof pk sig m = .ok (.ok true) ↔ f.Accepts xof pk m sig := by
  by_cases hl : pk.length = 57
  swap
  · refine iff_of_false ?_ ?_
    · unfold dsa_verify
      rw [decode_length f hl, bind_ok]
      intro h; cases h
    · rintro ⟨_, A, R, h, _⟩
      exact hl h.1
  rcases decode_cases f hf hl with ⟨A, p, ha, p1, p2⟩ | ⟨ha, hd⟩
  swap
  · refine iff_of_false ?_ ?_
    · rw [verify_bad_key f _ _ _ _ hd]
      intro h; cases h
    · rintro ⟨_, A, R, h, _⟩
      exact ha ⟨A, h⟩
  obtain ⟨P2, g1, g2⟩ := point_scalar_mul_rep p2 SCALAR_FOUR
  by_cases hL : f.sigLength = true ∧ sig.length ≠ 114
  · refine iff_of_false ?_ ?_
    · unfold dsa_verify
      rw [p1, bind_ok]
      dsimp only
      rw [g1, bind_ok, if_pos hL]
      intro h; cases h
    · rintro ⟨h, _⟩
      rw [if_pos hL.1] at h
      exact hL.2 h
  by_cases hs : 114 ≤ sig.length
  swap
  · refine iff_of_false ?_ ?_
    · unfold dsa_verify
      rw [p1, bind_ok]
      dsimp only
      rw [g1, bind_ok, if_neg hL]
      by_cases h57 : 57 ≤ sig.length
      · obtain ⟨sig1, s1, s2⟩ := sliceArr_ok (l := sig) (lo := 0) (n := 57) (by omega)
        rw [s1, bind_ok, sliceArr_err (by omega) (by norm_num), bind_err]
        intro h; cases h
      · rw [sliceArr_err (by omega) (by norm_num), bind_err]
        intro h; cases h
    · rintro ⟨h, _⟩
      split at h <;> omega
  have hlen : (if f.sigLength = true then sig.length = 114 else 114 ≤ sig.length) := by
    split
    · next h => exact not_not.mp fun h' => hL ⟨h, h'⟩
    · exact hs
  obtain ⟨sig1, s1, s2⟩ := sliceArr_ok (l := sig) (lo := 0) (n := 57) (by omega)
  obtain ⟨sig2, t1, t2⟩ := sliceArr_ok (l := sig) (lo := 57) (n := 57) (by omega)
  rw [List.drop_zero] at s2
  have hstart : f.dsa_verify xof pk sig m = (do
    match ← f.eddsa_like_decode sig1.1 with
    | .error .InvalidLengthError => pure (.error .InvalidSignatureLengthError)
    | .error .DecodeError => pure (.error .DecodeSignatureError)
    | .error _ => .error .explicit
    | .ok r_point =>
      if f.range ∧ (scalarEncode (decode_long sig2.1)).1 ≠ sig2.1 then pure (.ok false)
      else do
        let r ← f.verifyPoints xof pk p P2 r_point sig1 sig2 m
        pure (.ok (f.mod_equal r.1 r.2))) := by
    unfold dsa_verify
    rw [p1, bind_ok]
    dsimp only
    rw [g1, bind_ok, if_neg hL, s1, bind_ok, t1, bind_ok]
    rfl
  rw [Accepts, ← s2, ← t2]
  rcases decode_cases f hf sig1.2 with ⟨R, r, hr, r1, r2⟩ | ⟨hr, hd⟩
  swap
  · refine iff_of_false ?_ ?_
    · rw [hstart, hd, bind_ok]
      intro h; cases h
    · rintro ⟨_, A, R, _, h, _⟩
      exact hr ⟨R, h⟩
  by_cases hq : f.range = true → leNat sig2.1 < q
  · obtain ⟨P, Q, v1, v2, v3, v4⟩ := verifyPoints_spec f xof pk p2 g1 r2 sig1 sig2 m
    have hv : f.dsa_verify xof pk sig m = .ok (.ok (f.mod_equal P Q)) := by
      rw [hstart, r1, bind_ok]
      dsimp only
      rw [if_neg (fun h => h.2 ((Repaired.reduced_iff sig2).mpr (hq h.1))), v1, bind_ok]
      rfl
    rw [hv]
    have : (Except.ok (Except.ok (f.mod_equal P Q)) : Rust (Except Err Bool)) = .ok (.ok true) ↔ f.mod_equal P Q = true := by
      constructor
      · intro h
        injection h with h
        injection h with h
      · intro h; rw [h]
    rw [this, mod_equal_spec f hf v2 v3, v4]
    constructor
    · intro h
      exact ⟨hlen, A, R, ha, hr, hq, h⟩
    · rintro ⟨_, A', R', h1, h2, _, h3⟩
      rw [h1.unique ha, h2.unique hr] at h3
      exact h3
  · refine iff_of_false ?_ ?_
    · rw [hstart, r1, bind_ok]
      dsimp only
      rw [if_pos]
      · intro h; cases h
      · by_cases h1 : f.range = true
        · exact ⟨h1, fun h => hq fun _ => (Repaired.reduced_iff sig2).mp h⟩
        · exact absurd (fun h => absurd h h1) hq
    · rintro ⟨_, A, R, _, _, h, _⟩
      exact hq h

end Ed448.Repairs

namespace Ed448

set_option exponentiation.threshold 1000

/-- C87. If field elements are compared exactly, verification is what `Repairs.Accepts` says, for each choice of the other repairs. -/
theorem C87_exact (f : Repairs) (hf : f.limb15 = true) (xof : Xof) (pk sig m : List Byte) :
    f.ed448_verify xof pk sig m = .ok (.ok true) ↔ ¬ ZeroInput pk sig ∧ f.Accepts xof pk m sig := by
  by_cases h : ZeroInput pk sig
  · refine iff_of_false ?_ fun h' => h'.1 h
    unfold ZeroInput at h
    rw [Repairs.ed448_verify, if_pos h]
    intro h'; cases h'
  · rw [Repairs.verify_nonzero f h, Repairs.verify_iff f hf]
    tauto

/-- C87. Under a public key that the library has derived, such a verifier accepts only signatures with the equation of RFC 8032. -/
theorem C87_loose (f : Repairs) (hf : f.limb15 = true) (xof : Xof) (k pk : Arr Byte 57) (m sig : List Byte) (hk : ed448_derive_public xof k = .ok pk)
    (h : f.ed448_verify xof pk.1 sig m = .ok (.ok true)) : Loose plain xof pk.1 m sig := by
  obtain ⟨_, h1, A, R, hA, hR, _, he⟩ := (C87_exact f hf xof pk.1 sig m).mp h
  obtain ⟨pk', k1, k2⟩ := derive_spec xof k
  rw [hk] at k1
  injection k1 with k1
  subst k1
  have hA' : A = keyScalar xof k.1 • B := hA.2.2.2.1.unique (by rw [k2]; exact decodes_encode _)
  refine ⟨by split at h1 <;> omega, A, R, ?_, hR.2.2.2.1, ?_⟩
  · rw [decodesTo_iff, hA', k2]
  · have : (if f.keyHash = true then pk.1 else encodePoint ((q + 1) • A)) = pk.1 := by
      split
      · rfl
      · rw [hA', cleared_smul_B, k2]
    rwa [this] at he

/-- C87. The bound of C86 for all verifiers with the first repair: a forger who makes `n` requests is hardly better at making them accept a
signature of a new message than at finding a random secret from the public key. -/
theorem C87_library (f : Repairs) (hf : f.limb15 = true) (F : List Byte → Forger) (L : ℕ) (hF : Bounded F L) (K : Set (Fin 57 → Byte)) (hK : K.Nonempty)
    (hb : ∀ k ∈ K, signBit (List.ofFn k) = 0) (n : ℕ) (w : ℚ) (hw : 0 ≤ w)
    (hs : (n + 1) * chance {x : (((Fin (n + 1) → Out) × (Fin (n + 1) → Out)) × (Fin n → Fin q)) × (Fin 57 → Byte) |
      let s := RFC.secretScalar (List.ofFn x.2)
      let A := s • B
      extract (F (encodePoint A)) (fun i => blindSigner A (coin x.1.2 i)) (encodePoint A) n (extend x.1.1.1) (extend x.1.1.2) % q = s % q} ≤ w ^ 2) :
    chance {x : K × (Short L → Out) | LibForges (fun xof pk m sig => f.ed448_verify xof pk sig m = .ok (.ok true)) F (hashOf x.2) (keyOf x.1) n} ≤
      (1 + q / 2 ^ 912) ^ n * (w + (n + 1) * (1 / q + 1 / 2 ^ 912) + n ^ 2 / q) + (n + 1) * (1 / Nat.card K + 1 / 2 ^ 456) :=
  library_bound (fun xof k => LibForges (fun xof pk m sig => f.ed448_verify xof pk sig m = .ok (.ok true)) F xof k n) F L hF K hK hb n
    (forges_new fun xof k pk m sig hk h => C87_loose f hf xof k pk m sig hk h) w hw hs

/-- C87, with numbers, as `C86_numbers`. -/
theorem C87_numbers (f : Repairs) (hf : f.limb15 = true) (F : List Byte → Forger) (L : ℕ) (hF : Bounded F L) (n : ℕ) (hn : n < 2 ^ 100) (w : ℚ) (hw : 0 ≤ w)
    (hs : (n + 1) * chance {x : (((Fin (n + 1) → Out) × (Fin (n + 1) → Out)) × (Fin n → Fin q)) × (Fin 57 → Byte) |
      let s := RFC.secretScalar (List.ofFn x.2)
      let A := s • B
      extract (F (encodePoint A)) (fun i => blindSigner A (coin x.1.2 i)) (encodePoint A) n (extend x.1.1.1) (extend x.1.1.2) % q = s % q} ≤ w ^ 2) :
    chance {x : ordinaryKeys × (Short L → Out) |
      LibForges (fun xof pk m sig => f.ed448_verify xof pk sig m = .ok (.ok true)) F (hashOf x.2) (keyOf x.1) n} ≤ 2 * w + 1 / 2 ^ 240 :=
  numbers_bound (fun xof k => LibForges (fun xof pk m sig => f.ed448_verify xof pk sig m = .ok (.ok true)) F xof k n) F L hF n hn
    (forges_new fun xof k pk m sig hk h => C87_loose f hf xof k pk m sig hk h) w hw hs

/-! ## Concrete cases -/

/-- Only the first repair. -/
def Repairs.first : Repairs := ⟨true, false, false, false, false, false⟩

/-- The hypotheses of `C87_numbers` are met. With such numbers the bound is above 1 and says nothing; `C95_fixed_half` is about forgers for whom the numbers are small. -/
example : chance {x : ordinaryKeys × (Short 126 → Out) |
    LibForges (fun xof pk m sig => Repairs.first.ed448_verify xof pk sig m = .ok (.ok true)) exampleForger (hashOf x.2) (keyOf x.1) 3} ≤ 2 * 2 + 1 / 2 ^ 240 := by
  refine C87_numbers Repairs.first rfl exampleForger 126 exampleForger_bounded 3 (by norm_num) 2 (by norm_num) ?_
  refine (mul_le_mul_of_nonneg_left (chance_le_one _) (by positivity)).trans ?_
  norm_num

/-- A signature that is accepted with the first repair only: that of RFC 8032 with other bytes behind it. -/
example (s : ℕ) (hs : PassesCheck (s • B).y.val) (hR : PassesCheck (1 • B).y.val) (xof : Xof) (m : List Byte) :
    ∃ S, Repairs.first.ed448_verify xof (encodePoint (s • B)) (encodePoint (1 • B) ++ leBytes 57 S ++ [1, 2, 3]) m = .ok (.ok true) := by
  obtain ⟨c, hc⟩ : ∃ c, c = RFC.challenge xof (encodePoint (1 • B)) (encodePoint (s • B)) m := exists_eq
  have hl : (encodePoint (1 • B)).length = 57 := encodePoint_length _
  have hl2 : ∀ S, (leBytes 57 S).length = 57 := fun S => by simp
  have hread : ∀ A : E, PassesCheck A.y.val → Repairs.first.Reads (encodePoint A) A := by
    intro A hA
    refine ⟨encodePoint_length A, ((decodesTo_iff (b := encodePoint A)).mpr rfl).2.1, ?_, decodes_encode A, fun h => by cases h⟩
    rw [yNat_encode]
    exact hA
  refine ⟨(1 + c * s) % q, (C87_exact Repairs.first rfl _ _ _ _).mpr ⟨?_, ?_⟩⟩
  · rw [List.append_assoc]
    exact Repairs.nonzero_of_take (encode_smul_B_ne_zero s) hl (encode_smul_B_ne_zero 1)
  · have e1 : (encodePoint (1 • B) ++ leBytes 57 ((1 + c * s) % q) ++ [1, 2, 3]).take 57 = encodePoint (1 • B) := by
      rw [List.append_assoc, List.take_left' hl]
    have e2 : ((encodePoint (1 • B) ++ leBytes 57 ((1 + c * s) % q) ++ [1, 2, 3]).drop 57).take 57 = leBytes 57 ((1 + c * s) % q) := by
      rw [List.append_assoc, List.drop_left' hl, List.take_left' (hl2 _)]
    have e3 : leNat (leBytes 57 ((1 + c * s) % q)) = (1 + c * s) % q := by
      rw [leNat_leBytes, Nat.mod_eq_of_lt]
      have := Nat.mod_lt (1 + c * s) q_pos
      have := q_lt
      omega
    refine ⟨?_, s • B, 1 • B, hread _ hs, by rw [e1]; exact hread _ hR, fun h => (by cases h), ?_⟩
    · show 114 ≤ _
      rw [List.length_append, List.length_append, hl, hl2]
      omega
    · rw [e1, e2, e3, show (if Repairs.first.keyHash = true then encodePoint (s • B) else encodePoint ((q + 1) • s • B)) = encodePoint (s • B) by
        rw [cleared_smul_B, ite_self], ← hc, RFC.Equation, smul_B_mod, add_smul, mul_smul, smul_add, one_smul]

end Ed448
