import Verif.Properties.Interop
import Verif.Spec.Child

/-!
# C111: adding numbers to secret keys, as wallets do for child keys
-/

namespace Ed448

set_option exponentiation.threshold 1000

theorem secretForm_sign (n : ℕ) : signBit (secretForm n).1 = 1 := by
  rw [signBit, secretForm, List.getD_eq_getElem?_getD, List.getElem?_append_right (by rw [leBytes_length]), leBytes_length]
  rfl

theorem secretForm_scalar (n : ℕ) : RFC.secretScalar (secretForm n).1 = n % 2 ^ 447 / 4 * 4 + 2 ^ 447 := by
  rw [RFC.secretScalar, secretForm, leNat_append, leNat_leBytes, leBytes_length, show leNat [0x80#8] = 128 from rfl, show 256 ^ 56 = 2 ^ 448 by norm_num]
  have e : (n % 2 ^ 448 + 2 ^ 448 * 128) % 2 ^ 447 = n % 2 ^ 447 := by omega
  rw [e]

theorem keyScalar_secretForm (xof : Xof) (n : ℕ) : keyScalar xof (secretForm n).1 = n % 2 ^ 447 / 4 * 4 + 2 ^ 447 := by
  rw [keyScalar, if_neg (by rw [secretForm_sign]; norm_num), secretForm_scalar]

theorem keyScalar_range (xof : Xof) (k : List Byte) : 2 ^ 447 ≤ keyScalar xof k ∧ keyScalar xof k < 2 ^ 448 ∧ keyScalar xof k % 4 = 0 := by
  rw [keyScalar]
  split <;> exact secretScalar_range _

/-- Numbers that are not multiples of q: what is lost when a bit is carried out of the first 56 bytes. -/
theorem not_multiple : ∀ r < 4, (2 ^ 448 + r) % q ≠ 0 ∧ (2 ^ 447 + r) % q ≠ 0 := by
  rw [q_def]
  decide +kernel

theorem child_scalar {s δ : ℕ} (h1 : 2 ^ 447 ≤ s) (h2 : s < 2 ^ 448) (h3 : s % 4 = 0) (hδ : δ < 2 ^ 448) :
    ((s + δ) % 2 ^ 447 / 4 * 4 + 2 ^ 447) % q = (s + δ) % q ↔ 4 ∣ δ ∧ s + δ < 2 ^ 448 := by
  have hq : 4 < q := by rw [q_def]; decide +kernel
  constructor
  · intro h
    have hd : ∀ t d, t % q = (s + δ) % q → s + δ = t + d → d % q = 0 := fun t d ht hd => by
      have h' : t + 0 ≡ t + d [MOD q] := by rw [← hd, Nat.add_zero]; exact ht
      have := Nat.ModEq.add_left_cancel' t h'
      rw [Nat.ModEq, Nat.zero_mod] at this
      exact this.symm
    by_cases hn : s + δ < 2 ^ 448
    · have := hd _ (δ % 4) h (by omega)
      rw [Nat.mod_eq_of_lt (by omega)] at this
      omega
    · obtain ⟨n1, n2⟩ := not_multiple ((s + δ) % 4) (by omega)
      by_cases hv : s + δ < 2 ^ 448 + 2 ^ 447
      · exact absurd (hd _ (2 ^ 447 + (s + δ) % 4) h (by omega)) n2
      · exact absurd (hd _ (2 ^ 448 + (s + δ) % 4) h (by omega)) n1
  · rintro ⟨⟨c, rfl⟩, h⟩
    congr 1
    omega

/-- C111. A number is added to the secret scalar of a key of either form, and the result is used as a direct-secret key. The public key of the result is the
one that can be computed from the public key and the number alone if and only if the number is a multiple of four and nothing is carried out of the 448 bits. -/
theorem C111_child (xof : Xof) (k A A' : Arr Byte 57) (P : E) (δ : ℕ) (hδ : δ < 2 ^ 448) (hA : ed448_derive_public xof k = .ok A) (hP : RFC.DecodesTo A.1 P)
    (hA' : ed448_derive_public xof (secretForm (keyScalar xof k.1 + δ)) = .ok A') :
    RFC.DecodesTo A'.1 (P + δ • B) ↔ 4 ∣ δ ∧ keyScalar xof k.1 + δ < 2 ^ 448 := by
  obtain ⟨_, a1, a2⟩ := derive_spec xof k
  obtain rfl := Except.ok.inj (hA.symm.trans a1)
  obtain ⟨_, a3, a4⟩ := derive_spec xof (secretForm (keyScalar xof k.1 + δ))
  obtain rfl := Except.ok.inj (hA'.symm.trans a3)
  have e : P = keyScalar xof k.1 • B := encodePoint_inj.mp ((decodesTo_iff.mp hP).symm.trans a2)
  obtain ⟨r1, r2, r3⟩ := keyScalar_range xof k.1
  rw [decodesTo_iff, a4, encodePoint_inj, e, ← add_smul, smul_B_inj, keyScalar_secretForm, child_scalar r1 r2 r3 hδ]

/-- C111. In this case the child key signs for the public key that was computed without any secret. -/
theorem C111_sign (xof : Xof) (k A : Arr Byte 57) (P : E) (δ : ℕ) (h4 : 4 ∣ δ) (hlt : keyScalar xof k.1 + δ < 2 ^ 448)
    (hA : ed448_derive_public xof k = .ok A) (hP : RFC.DecodesTo A.1 P) (m : List Byte) :
    ∃ sig, ed448_sign xof (secretForm (keyScalar xof k.1 + δ)) m = .ok sig ∧ RFC.Valid xof (encodePoint (P + δ • B)) m sig.1 := by
  obtain ⟨A', sig, c1, c2, c3, _⟩ := C57_valid_elsewhere xof (secretForm (keyScalar xof k.1 + δ)) m
  refine ⟨sig, c2, ?_⟩
  have h := (C111_child xof k A A' P δ (by omega) hA hP c1).mpr ⟨h4, hlt⟩
  rwa [← decodesTo_iff.mp h]

/-- C111. The child key and the number give away the parent: the holder of both can compute a key with the same public key, and, if the parent is a
direct-secret key, with the same signatures. -/
theorem C111_parent (xof : Xof) (k k' : Arr Byte 57) (δ : ℕ) (h : keyScalar xof k'.1 = keyScalar xof k.1 + δ) :
    ed448_derive_public xof (secretForm (keyScalar xof k'.1 - δ)) = ed448_derive_public xof k ∧
    (signBit k.1 = 1 → ∀ m, ed448_sign xof (secretForm (keyScalar xof k'.1 - δ)) m = ed448_sign xof k m) := by
  rw [h, Nat.add_sub_cancel]
  obtain ⟨r1, r2, r3⟩ := keyScalar_range xof k.1
  have e : keyScalar xof (secretForm (keyScalar xof k.1)).1 = keyScalar xof k.1 := by rw [keyScalar_secretForm]; omega
  obtain ⟨A, a1, a2⟩ := derive_spec xof (secretForm (keyScalar xof k.1))
  obtain ⟨A', a3, a4⟩ := derive_spec xof k
  refine ⟨by rw [a1, a3, Subtype.ext (a2.trans ((congrArg (fun n => encodePoint (n • B)) e).trans a4.symm))], fun hk m => ?_⟩
  obtain ⟨s, s1, s2⟩ := sign_spec xof (secretForm (keyScalar xof k.1)) m
  obtain ⟨s', s3, s4⟩ := sign_spec xof k m
  have e2 : keySeed xof (secretForm (keyScalar xof k.1)).1 = keySeed xof k.1 := by
    have hs : RFC.secretScalar (secretForm (keyScalar xof k.1)).1 = RFC.secretScalar k.1 := by
      have e' : keyScalar xof k.1 = RFC.secretScalar k.1 := by rw [keyScalar, if_neg (by omega)]
      rw [secretForm_scalar, ← e']
      omega
    rw [keySeed, if_neg (by rw [secretForm_sign]; norm_num), keySeed, if_neg (by omega), hs]
  rw [s1, s3, Subtype.ext (s2.trans (by rw [e, e2, ← s4]))]

theorem not_multiple_below : ∀ r < 4, (2 ^ 447 - r) % q ≠ 0 := by
  rw [q_def]
  decide +kernel

/-- C111. Which numbers can be stored as direct-secret keys: the public key belongs to the number itself if and only if the number is a multiple of four and
has bit 447. In particular no number that was reduced modulo q can be stored: the group order is less than 2^446. -/
theorem C111_number (xof : Xof) (n : ℕ) (hn : n < 2 ^ 448) (A : Arr Byte 57) (hA : ed448_derive_public xof (secretForm n) = .ok A) :
    (RFC.DecodesTo A.1 (n • B) ↔ 4 ∣ n ∧ 2 ^ 447 ≤ n) ∧ (n < q → ¬ RFC.DecodesTo A.1 (n • B)) := by
  have hq : 4 < q := by rw [q_def]; decide +kernel
  have key : RFC.DecodesTo A.1 (n • B) ↔ 4 ∣ n ∧ 2 ^ 447 ≤ n := by
    obtain ⟨_, a1, a2⟩ := derive_spec xof (secretForm n)
    obtain rfl := Except.ok.inj (hA.symm.trans a1)
    rw [decodesTo_iff, a2, encodePoint_inj, smul_B_inj, keyScalar_secretForm]
    have hd : ∀ a d, (a + d) % q = a % q → d % q = 0 := fun a d h => by
      have h' : a + d ≡ a + 0 [MOD q] := by rw [Nat.add_zero]; exact h
      have := Nat.ModEq.add_left_cancel' a h'
      rwa [Nat.ModEq, Nat.zero_mod] at this
    constructor
    · intro h
      by_cases h7 : 2 ^ 447 ≤ n
      · refine ⟨?_, h7⟩
        have := hd (n % 2 ^ 447 / 4 * 4 + 2 ^ 447) (n % 4) (by rw [h]; congr 1; omega)
        rw [Nat.mod_eq_of_lt (by omega)] at this
        omega
      · refine absurd (hd n (2 ^ 447 - n % 4) ?_) (not_multiple_below (n % 4) (by omega))
        rw [← h]
        congr 1
        omega
    · rintro ⟨h4, h7⟩
      congr 1
      omega
  refine ⟨key, fun h h' => ?_⟩
  have := q_lt
  have := (key.mp h').2
  omega

theorem scalar_from_top (xof : Xof) (j : ℕ) (hj : j < 2 ^ 445) : keyScalar xof (secretForm (2 ^ 448 - 4 * (j + 1))).1 = 2 ^ 448 - 4 * (j + 1) := by
  rw [keyScalar_secretForm]
  omega

/-- C111. How many of the 2^445 direct-secret public keys have no child for a number that is a multiple of four: a quarter of the number. -/
theorem C111_lost (xof : Xof) (δ : ℕ) (h4 : 4 ∣ δ) (hδ : δ ≤ 2 ^ 447) :
    Set.ncard {A : Arr Byte 57 | ∃ k A', signBit k.1 = 1 ∧ ed448_derive_public xof k = .ok A ∧
      ed448_derive_public xof (secretForm (keyScalar xof k.1 + δ)) = .ok A' ∧
      ¬ ∃ P : E, RFC.DecodesTo A.1 P ∧ RFC.DecodesTo A'.1 (P + δ • B)} = δ / 4 := by
  let f : ℕ → Arr Byte 57 := fun j => ⟨encodePoint ((2 ^ 448 - 4 * (j + 1)) • B), encodePoint_length _⟩
  have hf : Set.InjOn f (Set.Iio (δ / 4)) := fun j hj j' hj' h => by
    rw [Set.mem_Iio] at hj hj'
    have h1 := congrArg Subtype.val h
    simp only [f] at h1
    rw [encodePoint_inj, smul_B_inj] at h1
    have e : ∀ i, i < δ / 4 → RFC.secretScalar (secretForm (2 ^ 448 - 4 * (i + 1))).1 = 2 ^ 448 - 4 * (i + 1) := fun i hi => by
      rw [secretForm_scalar]
      omega
    rw [← e j hj, ← e j' hj'] at h1
    have h2 := secretScalar_inj h1
    rw [e j hj, e j' hj'] at h2
    omega
  have hs : {A : Arr Byte 57 | ∃ k A', signBit k.1 = 1 ∧ ed448_derive_public xof k = .ok A ∧
      ed448_derive_public xof (secretForm (keyScalar xof k.1 + δ)) = .ok A' ∧
      ¬ ∃ P : E, RFC.DecodesTo A.1 P ∧ RFC.DecodesTo A'.1 (P + δ • B)} = f '' Set.Iio (δ / 4) := by
    ext A
    rw [Set.mem_ofPred_eq, Set.mem_image]
    constructor
    · rintro ⟨k, A', _, h1, h2, h3⟩
      obtain ⟨_, a1, a2⟩ := derive_spec xof k
      obtain rfl := Except.ok.inj (h1.symm.trans a1)
      have hP := decodesTo_iff.mpr a2
      have h5 := Nat.le_of_not_lt fun h => h3 ⟨_, hP, (C111_child xof k A A' _ δ (by omega) h1 hP h2).mpr ⟨h4, h⟩⟩
      obtain ⟨r1, r2, r3⟩ := keyScalar_range xof k.1
      refine ⟨(2 ^ 448 - keyScalar xof k.1) / 4 - 1, by rw [Set.mem_Iio]; omega, Subtype.ext ?_⟩
      rw [a2]
      show encodePoint (_ • B) = _
      congr 2
      omega
    · rintro ⟨j, hj, rfl⟩
      rw [Set.mem_Iio] at hj
      have e := scalar_from_top xof j (by omega)
      obtain ⟨A, a1, a2⟩ := derive_spec xof (secretForm (2 ^ 448 - 4 * (j + 1)))
      obtain ⟨A', b1, _⟩ := derive_spec xof (secretForm (keyScalar xof (secretForm (2 ^ 448 - 4 * (j + 1))).1 + δ))
      have hA : A = f j := Subtype.ext (by rw [a2, e])
      rw [← hA]
      refine ⟨_, A', secretForm_sign _, a1, b1, fun ⟨P, p1, p2⟩ => ?_⟩
      have := ((C111_child xof _ A A' P δ (by omega) a1 p1 b1).mp p2).2
      rw [e] at this
      omega
  rw [hs, hf.ncard_image, ← Finset.coe_Iio, Set.ncard_coe_finset, Nat.card_Iio]

/-- Cases for both answers: for every key, the number 0 gives the same public key, the number 1 does not give the expected one, and for numbers that are
multiples of four it depends on the key. -/
example (xof : Xof) (k : Arr Byte 57) : ∃ (A A' A'' : Arr Byte 57) (P : E), ed448_derive_public xof k = .ok A ∧ RFC.DecodesTo A.1 P ∧
    ed448_derive_public xof (secretForm (keyScalar xof k.1 + 0)) = .ok A' ∧ RFC.DecodesTo A'.1 (P + 0 • B) ∧
    ed448_derive_public xof (secretForm (keyScalar xof k.1 + 1)) = .ok A'' ∧ ¬ RFC.DecodesTo A''.1 (P + 1 • B) := by
  obtain ⟨A, a1, a2⟩ := derive_spec xof k
  obtain ⟨A', b1, _⟩ := derive_spec xof (secretForm (keyScalar xof k.1 + 0))
  obtain ⟨A'', c1, _⟩ := derive_spec xof (secretForm (keyScalar xof k.1 + 1))
  have hP := decodesTo_iff.mpr a2
  have := (keyScalar_range xof k.1).2.1
  exact ⟨A, A', A'', _, a1, hP, b1, (C111_child xof k A A' _ 0 (by norm_num) a1 hP b1).mpr ⟨by norm_num, by omega⟩, c1,
    fun h => absurd ((C111_child xof k A A'' _ 1 (by norm_num) a1 hP c1).mp h).1 (by norm_num)⟩

/-- The direct-secret key with the smallest scalar has children for all multiples of four below 2^447, and none for larger numbers. -/
example (xof : Xof) (δ : ℕ) : keyScalar xof (secretForm 0).1 + δ < 2 ^ 448 ↔ δ < 2 ^ 447 := by
  rw [keyScalar_secretForm]
  omega

/-- Numbers of both kinds for `C111_number`. -/
example : (4 ∣ 2 ^ 447 ∧ 2 ^ 447 ≤ 2 ^ 447) ∧ ¬ (4 ∣ 2 ^ 446 ∧ 2 ^ 447 ≤ 2 ^ 446) := by norm_num

/-- A child as it should be, for every hash function and every message. -/
example (xof : Xof) (m : List Byte) : ∃ (A : Arr Byte 57) (P : E) (sig : Arr Byte 114), ed448_derive_public xof (secretForm 0) = .ok A ∧ RFC.DecodesTo A.1 P ∧
    ed448_sign xof (secretForm (keyScalar xof (secretForm 0).1 + 4)) m = .ok sig ∧ RFC.Valid xof (encodePoint (P + 4 • B)) m sig.1 := by
  obtain ⟨A, a1, a2⟩ := derive_spec xof (secretForm 0)
  have hP := decodesTo_iff.mpr a2
  obtain ⟨sig, h1, h2⟩ := C111_sign xof (secretForm 0) A _ 4 (by norm_num) (by rw [keyScalar_secretForm]; omega) a1 hP m
  exact ⟨A, _, sig, a1, hP, h1, h2⟩

end Ed448
