import Verif.Properties.Interop
import Verif.Properties.SameKey

/-!
# What a signature is bound to, and what it shows: C65, C66
-/

set_option exponentiation.threshold 1000

namespace Ed448

/-- Multiples of a point that is not of small order. -/
theorem smul_four_inj {A : E} (hA : 4 • A ≠ 0) (c c' : ℕ) : 4 • (c • A) = 4 • (c' • A) ↔ c % q = c' % q := by
  obtain ⟨n, _, hn⟩ := four_mem_B A
  have hne : (n : ZMod q) ≠ 0 := by
    intro h
    rw [ZMod.natCast_eq_zero_iff] at h
    apply hA
    rw [hn, ← smul_B_mod, Nat.mod_eq_zero_of_dvd h, zero_smul]
  rw [smul_comm 4 c, smul_comm 4 c', hn, smul_smul, smul_smul, smul_B_inj, ← ZMod.natCast_eq_natCast_iff', ← ZMod.natCast_eq_natCast_iff']
  push_cast
  exact ⟨fun h => mul_right_cancel₀ hne h, fun h => by rw [h]⟩

theorem four_smul_B_ne {n : ℕ} (h : n • B ≠ 0) : 4 • (n • B) ≠ 0 := by
  intro h4
  apply h
  have h1 := congrArg (((q + 1) / 4) • ·) h4
  have := q_mod_four
  simp only [smul_zero] at h1
  rw [smul_smul, Nat.div_mul_cancel (by omega), cleared_smul_B] at h1
  exact h1

/-- C65. Under a key that is not of small order, a pair (R, S) that satisfies the equation with one challenge satisfies it with
another exactly if the two are congruent modulo the group order. -/
theorem C65_equation (S : ℕ) (R A : E) (c c' : ℕ) (hA : 4 • A ≠ 0) (h : RFC.Equation S R A c) : RFC.Equation S R A c' ↔ c % q = c' % q := by
  rw [RFC.Equation] at h ⊢
  rw [h, add_right_inj, smul_four_inj hA]

/-- The key B, R = B, S = 2. -/
example : 4 • B ≠ 0 ∧ RFC.Equation 2 B B 1 ∧ ¬ RFC.Equation 2 B B 2 := by
  have h4 : 4 • B ≠ 0 := by
    have := four_smul_B_ne (n := 1) (by rw [one_smul]; exact B_ne_zero)
    rwa [one_smul] at this
  have h1 : RFC.Equation 2 B B 1 := by rw [RFC.Equation, one_smul, two_smul, smul_add]
  refine ⟨h4, h1, fun h => ?_⟩
  have := (C65_equation 2 B B 1 2 h4 h1).mp h
  revert this
  rw [← qN_eq]
  decide +kernel

/-- The parts of a signature made by `ed448_sign`. -/
theorem sign_parts {xof : Xof} {k A : Arr Byte 57} {m : List Byte} {sig : Arr Byte 114} (hA : ed448_derive_public xof k = .ok A)
    (hs : ed448_sign xof k m = .ok sig) :
    A.1 = encodePoint (keyScalar xof k.1 • B) ∧ sig.1.take 57 = encodePoint (RFC.nonce xof (keySeed xof k.1) m • B) ∧
      leNat (sig.1.drop 57) < q ∧
      leNat (sig.1.drop 57) • B = RFC.nonce xof (keySeed xof k.1) m • B + RFC.challenge xof (sig.1.take 57) A.1 m • (keyScalar xof k.1 • B) := by
  obtain ⟨A', a1, a2⟩ := derive_spec xof k
  obtain rfl := Except.ok.inj (hA.symm.trans a1)
  obtain ⟨s', s1, s2⟩ := sign_spec xof k m
  obtain rfl := Except.ok.inj (hs.symm.trans s1)
  have hl := sig.2
  obtain ⟨h1, h2⟩ := sign_eq_parts xof (keyScalar xof k.1) (keySeed xof k.1) m
  rw [← s2] at h1 h2
  rw [List.take_of_length_le (by simp [hl])] at h2
  have hlt : ∀ n, n % q < 256 ^ 57 := fun n => by
    have := Nat.mod_lt n q_pos
    have := q_lt
    omega
  have h3 : leNat (sig.1.drop 57) = (RFC.nonce xof (keySeed xof k.1) m +
      RFC.challenge xof (sig.1.take 57) A.1 m * keyScalar xof k.1) % q := by
    rw [h2, leNat_leBytes, Nat.mod_eq_of_lt (hlt _), h1, a2, RFC.publicOf]
  refine ⟨a2, h1, by rw [h3]; exact Nat.mod_lt _ q_pos, ?_⟩
  rw [h3, smul_B_mod, add_smul, mul_smul]

/-- C65. A signature made for the message `m` is a valid signature (RFC 8032, with all checks) of the message `m'` under the same key exactly if
the challenges of the two messages are congruent modulo the group order; the library's verification then accepts it too, unless its
decoder rejects one of the strings. Only the key that is the neutral element (C48) is excluded. -/
theorem C65_other_message (xof : Xof) (k A : Arr Byte 57) (m m' : List Byte) (sig : Arr Byte 114) (hA : ed448_derive_public xof k = .ok A)
    (hs : ed448_sign xof k m = .ok sig) (hn : A.1 ≠ encodePoint 0) :
    (RFC.Valid xof A.1 m' sig.1 ↔ RFC.challenge xof (sig.1.take 57) A.1 m % q = RFC.challenge xof (sig.1.take 57) A.1 m' % q) ∧
    (RFC.challenge xof (sig.1.take 57) A.1 m % q = RFC.challenge xof (sig.1.take 57) A.1 m' % q → Accepted A.1 → Accepted (sig.1.take 57) →
      ed448_verify xof A.1 sig.1 m' = .ok (.ok true)) := by
  obtain ⟨h1, h2, h3, h4⟩ := sign_parts hA hs
  have hne : 4 • (keyScalar xof k.1 • B) ≠ 0 := four_smul_B_ne fun h => hn (by rw [h1, h])
  have heq : RFC.Equation (leNat (sig.1.drop 57)) (RFC.nonce xof (keySeed xof k.1) m • B) (keyScalar xof k.1 • B)
      (RFC.challenge xof (sig.1.take 57) A.1 m) := by rw [RFC.Equation, h4, smul_add]
  have hiff : RFC.Valid xof A.1 m' sig.1 ↔ RFC.challenge xof (sig.1.take 57) A.1 m % q = RFC.challenge xof (sig.1.take 57) A.1 m' % q := by
    rw [← C65_equation _ _ _ _ _ hne heq]
    constructor
    · rintro ⟨_, P, R, hP, hR, _, he⟩
      rw [decodesTo_iff] at hP hR
      obtain rfl := encodePoint_inj.mp (h1.symm.trans hP)
      obtain rfl := encodePoint_inj.mp (h2.symm.trans hR)
      exact he
    · exact fun he => ⟨sig.2, _, _, decodesTo_iff.mpr h1, decodesTo_iff.mpr h2, h3, he⟩
  refine ⟨hiff, fun hc ha hr => ?_⟩
  refine (C58_valid_accepted xof A.1 sig.1 m' (keyScalar xof k.1) (hiff.mpr hc) (decodesTo_iff.mpr h1) ?_).1 ha hr
  intro hz
  refine encode_smul_B_ne_zero (RFC.nonce xof (keySeed xof k.1) m) ?_
  rw [← h2, hz]
  simp

/-- C65. Two messages have the same signature under the same key only if their challenges are congruent modulo the group order. -/
theorem C65_same_signature (xof : Xof) (k A : Arr Byte 57) (m m' : List Byte) (sig : Arr Byte 114) (hA : ed448_derive_public xof k = .ok A)
    (hs : ed448_sign xof k m = .ok sig) (hs' : ed448_sign xof k m' = .ok sig) (hn : A.1 ≠ encodePoint 0) :
    RFC.challenge xof (sig.1.take 57) A.1 m % q = RFC.challenge xof (sig.1.take 57) A.1 m' % q := by
  obtain ⟨h1, h2, h3, h4⟩ := sign_parts hA hs
  obtain ⟨_, h2', _, h4'⟩ := sign_parts hA hs'
  have hne : 4 • (keyScalar xof k.1 • B) ≠ 0 := four_smul_B_ne fun h => hn (by rw [h1, h])
  have e := encodePoint_inj.mp (h2.symm.trans h2')
  rw [h4, ← e, add_right_inj] at h4'
  rw [← smul_four_inj hne, h4']

/-- C65. The same signature made with two keys (for any two messages): the products of challenge and secret scalar are congruent. -/
theorem C65_two_keys (xof : Xof) (k k' A A' : Arr Byte 57) (m m' : List Byte) (sig : Arr Byte 114) (hA : ed448_derive_public xof k = .ok A)
    (hA' : ed448_derive_public xof k' = .ok A') (hs : ed448_sign xof k m = .ok sig) (hs' : ed448_sign xof k' m' = .ok sig) :
    RFC.challenge xof (sig.1.take 57) A.1 m * keyScalar xof k.1 % q = RFC.challenge xof (sig.1.take 57) A'.1 m' * keyScalar xof k'.1 % q := by
  obtain ⟨_, h2, _, h4⟩ := sign_parts hA hs
  obtain ⟨_, h2', _, h4'⟩ := sign_parts hA' hs'
  have e := encodePoint_inj.mp (h2.symm.trans h2')
  rw [h4, ← e, add_right_inj, smul_smul, smul_smul, smul_B_inj] at h4'
  exact h4'

/-- With a hash function that always returns 1, 0, 0, ... all messages have the same signature under the direct-secret key `key0`, whose
public key is not neutral. -/
example (m m' : List Byte) : ∃ A sig, ed448_derive_public Witness.oneXof Witness.key0 = .ok A ∧ A.1 ≠ encodePoint 0 ∧
    ed448_sign Witness.oneXof Witness.key0 m = .ok sig ∧ ed448_sign Witness.oneXof Witness.key0 m' = .ok sig := by
  obtain ⟨A, a1, a2⟩ := C03_derive_direct Witness.oneXof Witness.key0 Witness.key0_sign
  obtain ⟨s, s1, s2⟩ := C04_sign_direct Witness.oneXof Witness.key0 m Witness.key0_sign
  obtain ⟨s', s3, s4⟩ := C04_sign_direct Witness.oneXof Witness.key0 m' Witness.key0_sign
  refine ⟨A, s, a1, ?_, s1, ?_⟩
  · intro h
    rw [a2, Witness.key0_scalar] at h
    replace h := encodePoint_inj.mp h
    have := smul_B_inj.mp (h.trans (zero_smul ℕ B).symm)
    revert this
    rw [← qN_eq]
    decide +kernel
  · have h : s' = s := Subtype.ext (s4.trans (Eq.trans ?_ s2.symm))
    · rw [s3, h]
    rw [RFC.signWith, RFC.signWith]
    have e : ∀ s, leNat (RFC.hash Witness.oneXof s 114) = 1 := fun s => by
      rw [show RFC.hash Witness.oneXof s 114 = RFC.hash Witness.oneXof [] 114 from rfl]
      decide +kernel
    simp only [RFC.nonce, RFC.challenge, e]

/-- C66. Every signature is a function of its second half S, the challenge c and the public key A, without the secret: its first half is the
encoding of `SB - cA`. -/
theorem C66_signature_from_public (xof : Xof) (k A : Arr Byte 57) (m : List Byte) (sig : Arr Byte 114) (hA : ed448_derive_public xof k = .ok A)
    (hs : ed448_sign xof k m = .ok sig) :
    ∃ (P : E) (S : ℕ), RFC.DecodesTo A.1 P ∧ S < q ∧
      sig.1 = encodePoint (S • B - RFC.challenge xof (sig.1.take 57) A.1 m • P) ++ leBytes 57 S := by
  obtain ⟨h1, h2, h3, h4⟩ := sign_parts hA hs
  refine ⟨_, _, decodesTo_iff.mpr h1, h3, ?_⟩
  rw [h4, add_sub_cancel_right, ← h2]
  have hl : (sig.1.drop 57).length = 57 := by simp [sig.2]
  have := leBytes_leNat (sig.1.drop 57)
  rw [hl] at this
  rw [this, List.take_append_drop]

/-- C66. For a fixed challenge c and secret scalar s, the pairs (R, S) that the signer can make with nonces r in [0, q) are the pairs
`(SB - cA, S)` that anyone can make from the public key `A = sB`; each arises from exactly one r and from exactly one S. -/
theorem C66_simulation (s c : ℕ) :
    (Finset.range q).image (fun r => (encodePoint (r • B), (r + c * s) % q)) =
      (Finset.range q).image (fun S => (encodePoint (S • B - c • (s • B)), S)) ∧
    Set.InjOn (fun r => (encodePoint (r • B), (r + c * s) % q)) {r | r < q} ∧
    Set.InjOn (fun S => (encodePoint (S • B - c • (s • B)), S)) {S | S < q} := by
  have hmod : ∀ r : ℕ, (r + c * s) % q < q := fun r => Nat.mod_lt _ q_pos
  refine ⟨?_, ?_, fun a _ b _ h => (Prod.mk.inj h).2⟩
  · ext ⟨R, S⟩
    simp only [Finset.mem_image, Finset.mem_range, Prod.mk.injEq]
    constructor
    · rintro ⟨r, hr, rfl, rfl⟩
      refine ⟨_, hmod r, ?_, rfl⟩
      rw [smul_B_mod, add_smul, smul_smul, add_sub_cancel_right]
    · rintro ⟨S', hS, rfl, rfl⟩
      obtain ⟨t, ht⟩ : ∃ t, t + c * s = S' + q * (c * s) := ⟨S' + (q - 1) * (c * s), by
        have : q = (q - 1) + 1 := by have := q_pos; omega
        conv_rhs => rw [this]
        ring⟩
      refine ⟨t % q, Nat.mod_lt _ q_pos, ?_, ?_⟩
      · rw [smul_B_mod, encodePoint_inj, eq_sub_iff_add_eq, smul_smul, ← add_smul, ht, smul_B_inj, Nat.add_mul_mod_self_left]
      · rw [Nat.mod_add_mod, ht, Nat.add_mul_mod_self_left, Nat.mod_eq_of_lt hS]
  · intro a ha b hb h
    have h1 := smul_B_inj.mp (encodePoint_inj.mp (Prod.mk.inj h).1)
    rwa [Nat.mod_eq_of_lt ha, Nat.mod_eq_of_lt hb] at h1

/-- C66. Nothing but the challenge stands in the way of a forgery: for every accepted key that describes a point A, every S and every c,
`(SB - cA, S)` is accepted for each message whose challenge is congruent to c modulo the group order. -/
theorem C66_forgery (xof : Xof) (pk m : List Byte) (A : E) (S c : ℕ) (hz : pk ≠ List.replicate 57 0) (hp : Accepted pk) (hd : Decodes pk A)
    (hS : S < 2 ^ 456) (hr : Accepted (encodePoint (S • B - c • A))) (hrz : encodePoint (S • B - c • A) ≠ List.replicate 57 0)
    (hc : RFC.challenge xof (encodePoint (S • B - c • A)) (encodePoint ((q + 1) • A)) m % q = c % q) :
    ed448_verify xof pk (encodePoint (S • B - c • A) ++ leBytes 57 S) m = .ok (.ok true) := by
  have hl : (encodePoint (S • B - c • A)).length = 57 := encodePoint_length _
  refine C07_complete xof pk _ m A (S • B - c • A) ?_ hp hd (by simp [hl]) ?_ ?_ ?_
  · rintro (h | h)
    · exact hz h
    · have := congrArg (List.take 57) h
      rw [List.take_left' hl] at this
      exact hrz (this.trans (by simp))
  · rw [List.take_left' hl]; exact hr
  · rw [List.take_left' hl]; exact decodes_encode _
  · rw [List.take_left' hl, List.drop_left' hl, List.take_of_length_le (by simp), leNat_leBytes,
      Nat.mod_eq_of_lt (by rw [show 256 ^ 57 = 2 ^ 456 by norm_num]; exact hS), RFC.Equation, smul_sub]
    have h4 : ∀ a b : ℕ, a % q = b % q → 4 • (a • A) = 4 • (b • A) := fun a b h => by
      rw [smul_comm 4 a, smul_comm 4 b]
      obtain ⟨n, _, hn⟩ := four_mem_B A
      rw [hn, smul_smul, smul_smul, smul_B_inj, Nat.mul_mod, h, ← Nat.mul_mod]
    rw [h4 _ _ hc]
    abel

/-- The key B and S = 2, c = 1, with the hash function that always returns 1, 0, 0, ...: accepted for every message. -/
example (m : List Byte) : ed448_verify Witness.oneXof (encodePoint B) (encodePoint (2 • B - 1 • B) ++ leBytes 57 2) m = .ok (.ok true) := by
  have e : 2 • B - 1 • B = 1 • B := by rw [two_smul, one_smul, add_sub_cancel_right]
  have hz := encode_smul_B_ne_zero 1
  refine C66_forgery _ _ m B 2 1 (by rwa [one_smul] at hz) Witness.B_accepted (decodes_encode B) (by norm_num) ?_ ?_ ?_
  · rw [e, one_smul]; exact Witness.B_accepted
  · rw [e]; exact hz
  · have : ∀ s, leNat (RFC.hash Witness.oneXof s 114) = 1 := fun s => by
      rw [show RFC.hash Witness.oneXof s 114 = RFC.hash Witness.oneXof [] 114 from rfl]
      decide +kernel
    rw [RFC.challenge, this]

end Ed448
