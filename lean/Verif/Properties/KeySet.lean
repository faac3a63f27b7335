import Verif.Properties.Count

/-!
# C108: the set of all public keys
-/

namespace Ed448

set_option exponentiation.threshold 1000

/-- The point is the public key of some private key. -/
def IsKey (xof : Xof) (A : E) : Prop := ∃ k pk : Arr Byte 57, ed448_derive_public xof k = .ok pk ∧ pk.1 = encodePoint A

/-- The secret scalars divided by 4: 446 bits, the first one set. -/
theorem isKey_iff (xof : Xof) (A : E) : IsKey xof A ↔ ∃ t, 2 ^ 445 ≤ t ∧ t < 2 ^ 446 ∧ A = (4 * t) • B := by
  have h445 : (2 : ℕ) ^ 447 = 4 * 2 ^ 445 := by rw [show 447 = 2 + 445 from rfl, pow_add]; norm_num
  have h446 : (2 : ℕ) ^ 446 = 2 * 2 ^ 445 := by rw [show 446 = 1 + 445 from rfl, pow_add]; norm_num
  have h448 : (2 : ℕ) ^ 448 = 8 * 2 ^ 445 := by rw [show 448 = 3 + 445 from rfl, pow_add]; norm_num
  constructor
  · rintro ⟨k, pk, h1, h2⟩
    obtain ⟨pk', k1, k2⟩ := derive_spec xof k
    obtain rfl := Except.ok.inj (h1.symm.trans k1)
    rw [k2, encodePoint_inj] at h2
    obtain ⟨l, hl⟩ : ∃ l, keyScalar xof k.1 = RFC.secretScalar l := by
      rw [keyScalar]
      split <;> exact ⟨_, rfl⟩
    have hr := secretScalar_range l
    rw [← hl] at hr
    refine ⟨keyScalar xof k.1 / 4, by omega, by omega, ?_⟩
    rw [Nat.mul_div_cancel' (Nat.dvd_of_mod_eq_zero hr.2.2), h2]
  · rintro ⟨t, t1, t2, rfl⟩
    have h := (C67_direct xof (t - 2 ^ 445) (by omega)).1
    obtain ⟨k, _, pk, h1, h2⟩ := Set.nonempty_of_ncard_ne_zero (by rw [h]; norm_num)
    refine ⟨k, pk, h1, ?_⟩
    rw [h2, RFC.publicOf, show 4 * (t - 2 ^ 445) + 2 ^ 447 = 4 * t by omega]

theorem four_mul_inj {a b : ℕ} (h : (4 * a) • B = (4 * b) • B) : a % q = b % q := by
  have hc : q.gcd 4 = 1 := by
    have := q_mod_four
    show Nat.Coprime q 4
    rw [Nat.coprime_comm, show 4 = 2 ^ 2 from rfl]
    exact Nat.Coprime.pow_left 2 ((Nat.coprime_primes Nat.prime_two (Fact.out : q.Prime)).mpr (by omega))
  rw [smul_B_inj] at h
  exact Nat.ModEq.cancel_left_of_coprime hc h

/-- Different numbers of this size give different points. -/
theorem quarter_injOn {lo : ℕ} (hlo : 2 ^ 445 ≤ lo) : Set.InjOn (fun t : ℕ => (4 * t) • B) (Finset.Ico lo (2 ^ 446) : Finset ℕ) := by
  have h446 : (2 : ℕ) ^ 446 = 2 * 2 ^ 445 := by rw [show 446 = 1 + 445 from rfl, pow_add]; norm_num
  have hb : 2 ^ 445 ≤ q := by rw [q_def]; decide +kernel
  intro a ha b hb' h
  obtain ⟨a1, a2⟩ := Finset.mem_Ico.mp (Finset.mem_coe.mp ha)
  obtain ⟨b1, b2⟩ := Finset.mem_Ico.mp (Finset.mem_coe.mp hb')
  have h1 : 2 ^ 445 + (a - 2 ^ 445) ≡ 2 ^ 445 + (b - 2 ^ 445) [MOD q] := by
    rw [Nat.add_sub_cancel' (by omega), Nat.add_sub_cancel' (by omega)]
    exact four_mul_inj h
  have h2 := Nat.ModEq.eq_of_lt_of_lt (Nat.ModEq.add_left_cancel' _ h1) (by omega) (by omega)
  omega

/-- C108. The library can make exactly 2^445 public keys, and the hash function does not matter for which ones these are. They are more than half of the multiples
of the base point. -/
theorem C108_count (xof : Xof) : Set.ncard {A : E | IsKey xof A} = 2 ^ 445 ∧ (∀ xof', {A : E | IsKey xof' A} = {A : E | IsKey xof A}) ∧
    2 ^ 445 < Set.ncard {A : E | ∃ n : ℕ, A = n • B} ∧ Set.ncard {A : E | ∃ n : ℕ, A = n • B} < 2 * 2 ^ 445 := by
  have h446 : (2 : ℕ) ^ 446 = 2 * 2 ^ 445 := by rw [show 446 = 1 + 445 from rfl, pow_add]; norm_num
  have hq : Set.ncard {A : E | ∃ n : ℕ, A = n • B} = q := by
    have e : {A : E | ∃ n : ℕ, A = n • B} = (fun t : ℕ => t • B) '' (Finset.range q : Finset ℕ) := by
      ext A
      rw [Set.mem_ofPred_eq, Set.mem_image]
      constructor
      · rintro ⟨n, rfl⟩
        exact ⟨n % q, Finset.mem_coe.mpr (Finset.mem_range.mpr (Nat.mod_lt _ q_pos)), by rw [smul_B_mod]⟩
      · rintro ⟨n, _, rfl⟩
        exact ⟨n, rfl⟩
    rw [e, Set.InjOn.ncard_image, Set.ncard_coe_finset, Finset.card_range]
    intro a ha b hb h
    have h1 := smul_B_inj.mp (show a • B = b • B from h)
    rwa [Nat.mod_eq_of_lt (Finset.mem_range.mp (Finset.mem_coe.mp ha)), Nat.mod_eq_of_lt (Finset.mem_range.mp (Finset.mem_coe.mp hb))] at h1
  refine ⟨?_, fun xof' => ?_, ?_, ?_⟩
  · have e : {A : E | IsKey xof A} = (fun t : ℕ => (4 * t) • B) '' (Finset.Ico (2 ^ 445) (2 ^ 446) : Finset ℕ) := by
      ext A
      rw [Set.mem_ofPred_eq, isKey_iff, Set.mem_image]
      constructor
      · rintro ⟨t, t1, t2, rfl⟩
        exact ⟨t, Finset.mem_coe.mpr (Finset.mem_Ico.mpr ⟨t1, t2⟩), rfl⟩
      · rintro ⟨t, ht, rfl⟩
        obtain ⟨t1, t2⟩ := Finset.mem_Ico.mp (Finset.mem_coe.mp ht)
        exact ⟨t, t1, t2, rfl⟩
    rw [e, Set.InjOn.ncard_image (quarter_injOn le_rfl), Set.ncard_coe_finset, Nat.card_Ico, h446]
    omega
  · ext A
    rw [Set.mem_ofPred_eq, Set.mem_ofPred_eq, isKey_iff, isKey_iff]
  · rw [hq, q_def]
    decide +kernel
  · rw [hq, q_def]
    decide +kernel

/-- C108. Every public key that RFC 8032 gives, for any private key and any hash function, is one that the library can make; so is the encoding of every point of which a secret
scalar is known that has the form of RFC 8032. -/
theorem C108_rfc (xof xof' : Xof) (k : List Byte) : (∃ A, RFC.publicKey xof' k = encodePoint A ∧ IsKey xof A) ∧ IsKey xof (RFC.secretScalar k • B) := by
  have key : ∀ l : List Byte, IsKey xof (RFC.secretScalar l • B) := fun l => by
    have h445 : (2 : ℕ) ^ 447 = 4 * 2 ^ 445 := by rw [show 447 = 2 + 445 from rfl, pow_add]; norm_num
    have h446 : (2 : ℕ) ^ 446 = 2 * 2 ^ 445 := by rw [show 446 = 1 + 445 from rfl, pow_add]; norm_num
    have h448 : (2 : ℕ) ^ 448 = 8 * 2 ^ 445 := by rw [show 448 = 3 + 445 from rfl, pow_add]; norm_num
    have hr := secretScalar_range l
    exact (isKey_iff xof _).mpr ⟨RFC.secretScalar l / 4, by omega, by omega, by rw [Nat.mul_div_cancel' (Nat.dvd_of_mod_eq_zero hr.2.2)]⟩
  exact ⟨⟨_, rfl, key _⟩, key _⟩

/-- Changing the sign bit of the encoding of a point gives the encoding of its opposite, unless x is zero. -/
theorem C108_sign (A : E) (hx : A.x ≠ 0) : yNat (encodePoint (-A)) = yNat (encodePoint A) ∧ signBit (encodePoint (-A)) = 1 - signBit (encodePoint A) := by
  rw [yNat_encode, yNat_encode, signBit_encode, signBit_encode, Edw.neg_x, Edw.neg_y, ZMod.neg_val, if_neg hx]
  have h1 := ZMod.val_lt A.x
  have h2 := p_odd
  exact ⟨rfl, by omega⟩

/-- C108. The opposite of a public key, which is what one gets by changing the sign bit, is hardly ever a public key: exactly 2^447 - 2q - 1 of the 2^445 public keys have an
opposite that the library can make. -/
theorem C108_opposite (xof : Xof) : Set.ncard {A : E | IsKey xof A ∧ IsKey xof (-A)} = 2 ^ 447 - 2 * q - 1 ∧ 2 ^ 447 - 2 * q - 1 < 2 ^ 225 := by
  have h446 : (2 : ℕ) ^ 446 = 2 * 2 ^ 445 := by rw [show 446 = 1 + 445 from rfl, pow_add]; norm_num
  have h447 : (2 : ℕ) ^ 447 = 4 * 2 ^ 445 := by rw [show 447 = 2 + 445 from rfl, pow_add]; norm_num
  have q1 : q < 2 ^ 446 := by rw [q_def]; decide +kernel
  have q2 : 2 ^ 447 < 3 * q := by rw [q_def]; decide +kernel
  have q3 : 3 * 2 ^ 445 ≤ 2 * q := by rw [q_def]; decide +kernel
  have e : {A : E | IsKey xof A ∧ IsKey xof (-A)} = (fun t : ℕ => (4 * t) • B) '' (Finset.Ico (2 * q - 2 ^ 446 + 1) (2 ^ 446) : Finset ℕ) := by
    ext A
    rw [Set.mem_ofPred_eq, isKey_iff, isKey_iff, Set.mem_image]
    constructor
    · rintro ⟨⟨t, t1, t2, rfl⟩, u, u1, u2, hu⟩
      refine ⟨t, Finset.mem_coe.mpr (Finset.mem_Ico.mpr ⟨?_, t2⟩), rfl⟩
      have h1 : (4 * (t + u)) • B = (4 * 0) • B := by
        rw [mul_add, add_smul, ← hu, mul_zero, zero_smul, add_neg_cancel]
      obtain ⟨n, hn⟩ := Nat.dvd_of_mod_eq_zero ((four_mul_inj h1).trans (Nat.zero_mod q))
      have hn2 : n = 2 := by
        have l1 : n < 3 := by
          by_contra h
          have := Nat.mul_le_mul_left q (not_lt.mp h)
          omega
        interval_cases n <;> omega
      subst hn2
      omega
    · rintro ⟨t, ht, rfl⟩
      obtain ⟨t1, t2⟩ := Finset.mem_Ico.mp (Finset.mem_coe.mp ht)
      refine ⟨⟨t, by omega, t2, rfl⟩, 2 * q - t, by omega, by omega, ?_⟩
      rw [neg_eq_iff_add_eq_zero]
      show (4 * t) • B + _ = 0
      rw [← add_smul, ← mul_add, Nat.add_sub_cancel' (by omega), mul_smul, mul_smul, q_smul_B, smul_zero, smul_zero]
  rw [e, Set.InjOn.ncard_image (quarter_injOn (by omega)), Set.ncard_coe_finset, Nat.card_Ico]
  refine ⟨by omega, ?_⟩
  rw [q_def]
  decide +kernel

/-- A public key whose opposite is a public key: the neutral element (C48). A multiple of the base point that is no public key: the one with the factor 2^446. -/
example (xof : Xof) : (IsKey xof 0 ∧ IsKey xof (-0)) ∧ ¬ IsKey xof ((4 * 2 ^ 444) • B) := by
  have h : IsKey xof 0 := (isKey_iff xof 0).mpr ⟨q, by rw [q_def]; decide +kernel, by rw [q_def]; decide +kernel, by rw [mul_smul, q_smul_B, smul_zero]⟩
  refine ⟨⟨h, by rwa [neg_zero]⟩, ?_⟩
  rw [isKey_iff]
  rintro ⟨t, t1, t2, ht⟩
  have h1 := four_mul_inj ht
  have h445 : (2 : ℕ) ^ 445 = 2 * 2 ^ 444 := by rw [show 445 = 1 + 444 from rfl, pow_add]; norm_num
  have h446 : (2 : ℕ) ^ 446 = 4 * 2 ^ 444 := by rw [show 446 = 2 + 444 from rfl, pow_add]; norm_num
  have q2 : 2 ^ 446 < 2 ^ 444 + q := by rw [q_def]; decide +kernel
  rw [Nat.mod_eq_of_lt (by omega : 2 ^ 444 < q)] at h1
  rcases Nat.lt_or_ge t q with h2 | h2
  · rw [Nat.mod_eq_of_lt h2] at h1
    omega
  · rw [Nat.mod_eq_sub_mod h2, Nat.mod_eq_of_lt (by omega)] at h1
    omega

end Ed448
