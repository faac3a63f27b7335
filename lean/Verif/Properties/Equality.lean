import Verif.Model.Equality
import Verif.Properties.SameKey
import Verif.Properties.Checked
import Verif.Properties.Count
import Verif.Properties.Api

/-!
# C102: what `==` on keys and errors tells
-/

set_option exponentiation.threshold 1000

namespace Ed448

theorem bytesEq_iff : ∀ a b : List Byte, bytesEq a b = true ↔ a = b
  | [], [] => by simp [bytesEq]
  | [], b :: bs => by simp [bytesEq]
  | a :: as, [] => by simp [bytesEq]
  | a :: as, b :: bs => by
    rw [bytesEq, List.cons.injEq]
    by_cases h : a.toNat = b.toNat
    · rw [if_pos h, bytesEq_iff as bs]
      exact (and_iff_right (BitVec.eq_of_toNat_eq h)).symm
    · rw [if_neg h]
      simp only [Bool.false_eq_true, false_iff]
      exact fun h' => h (by rw [h'.1])

theorem SecretKey.eq_iff {a b : SecretKey} : a.eq b = true ↔ a = b := by
  rw [SecretKey.eq, bytesEq_iff]
  refine ⟨fun h => ?_, fun h => by rw [h]⟩
  obtain ⟨⟨a, ha⟩⟩ := a
  obtain ⟨⟨b, hb⟩⟩ := b
  obtain rfl : a = b := h
  rfl

theorem VerifyingKey.eq_iff {a b : VerifyingKey} : a.eq b = true ↔ a = b := by
  rw [VerifyingKey.eq, bytesEq_iff]
  refine ⟨fun h => ?_, fun h => by rw [h]⟩
  obtain ⟨⟨a, ha⟩⟩ := a
  obtain ⟨⟨b, hb⟩⟩ := b
  obtain rfl : a = b := h
  rfl

theorem SigningKey.eq_iff {a b : SigningKey} : a.eq b = true ↔ a = b := by
  rw [SigningKey.eq, Bool.and_eq_true, SecretKey.eq_iff, VerifyingKey.eq_iff]
  refine ⟨fun h => ?_, fun h => by rw [h]; exact ⟨rfl, rfl⟩⟩
  obtain ⟨a1, a2⟩ := a
  obtain ⟨b1, b2⟩ := b
  obtain ⟨rfl, rfl⟩ : a1 = b1 ∧ a2 = b2 := h
  rfl

/-- The signing key with these bytes. -/
theorem obtained_of_bytes (xof : Xof) (b : Arr Byte 57) : ∃ k, Obtained xof k ∧ k.to_bytes = b := by
  obtain ⟨A, _, h, _⟩ := from_slice_spec (xof := xof) b.2
  exact ⟨_, .from_slice h, rfl⟩

theorem obtained_ext {xof : Xof} {k k' : SigningKey} (h : Obtained xof k) (h' : Obtained xof k') (hb : k.to_bytes = k'.to_bytes) : k = k' := by
  have h1 := C20_verifying_key xof k h
  have h2 := C20_verifying_key xof k' h'
  rw [hb] at h1
  have h3 : k.verifying_key.key = k'.verifying_key.key := Except.ok.inj (h1.symm.trans h2)
  obtain ⟨⟨a⟩, ⟨b⟩⟩ := k
  obtain ⟨⟨a'⟩, ⟨b'⟩⟩ := k'
  obtain rfl : a = a' := hb
  obtain rfl : b = b' := h3
  rfl

/-- C102. `==` on keys compares the bytes that the functions of the library give out: those of `from_bytes` for secret keys, `as_bytes` for verifying keys, and
`to_bytes` for the signing keys that the constructors make. -/
theorem C102_bytes (xof : Xof) :
    (∀ a b x y, SecretKey.from_bytes a = .ok x → SecretKey.from_bytes b = .ok y → (x.eq y = true ↔ a = b)) ∧
    (∀ x y : VerifyingKey, x.eq y = true ↔ x.as_bytes = y.as_bytes) ∧
    (∀ x y, Obtained xof x → Obtained xof y → (x.eq y = true ↔ x.to_bytes.1 = y.to_bytes.1) ∧ (x.eq y = true ↔ x.serialize = y.serialize)) := by
  refine ⟨fun a b x y hx hy => ?_, fun x y => bytesEq_iff _ _, fun x y hx hy => ?_⟩
  · have key : ∀ a x, SecretKey.from_bytes a = .ok x → x.key.1 = a := by
      intro a x h
      rw [SecretKey.from_bytes, toArr57] at h
      split at h
      · rw [bind_ok] at h
        injection h with h
        rw [← h]
      · rw [bind_err] at h
        cases h
    rw [SecretKey.eq, bytesEq_iff, key a x hx, key b y hy]
  · have h1 : x.eq y = true ↔ x.to_bytes.1 = y.to_bytes.1 := by
      rw [SigningKey.eq_iff]
      exact ⟨fun h => by rw [h], fun h => obtained_ext hx hy (Subtype.ext h)⟩
    refine ⟨h1, h1.trans ⟨fun h => ?_, fun h => ?_⟩⟩
    · show hexEncode x.to_bytes.1 = hexEncode y.to_bytes.1
      rw [h]
    · have h2 := (C24_serde (ε := Unit) xof).1 x hx
      rw [h, (C24_serde (ε := Unit) xof).1 y hy] at h2
      rw [Except.ok.inj (Except.ok.inj h2)]

/-- C102. `==` is an equivalence relation on keys, as `Eq` promises. -/
theorem C102_equivalence : Equivalence (fun a b : SecretKey => a.eq b = true) ∧ Equivalence (fun a b : VerifyingKey => a.eq b = true) ∧
    Equivalence (fun a b : SigningKey => a.eq b = true) := by
  simp only [SecretKey.eq_iff, VerifyingKey.eq_iff, SigningKey.eq_iff]
  exact ⟨eq_equivalence, eq_equivalence, eq_equivalence⟩

/-- C102. Signing keys that are equal sign alike, show the same verifying key, and serialize and print alike. -/
theorem C102_alike (xof : Xof) (x y : SigningKey) (h : x.eq y = true) :
    x.get_verifying_key.eq y.get_verifying_key = true ∧ x.get_secret_key.eq y.get_secret_key = true ∧ x.serialize = y.serialize ∧
      ∀ m, x.sign_prehash xof m = y.sign_prehash xof m := by
  obtain rfl := SigningKey.eq_iff.mp h
  exact ⟨VerifyingKey.eq_iff.mpr rfl, SecretKey.eq_iff.mpr rfl, rfl, fun _ => rfl⟩

/-- C102. Signing keys that are not equal can sign alike: a key whose bytes are the secret (bit 7 of the last byte is set) is one of exactly 1024 such keys with the same verifying
key, no two of which are equal and all of which sign every message alike. -/
theorem C102_direct (xof : Xof) (k : SigningKey) (hk : Obtained xof k) (hs : signBit k.to_bytes.1 = 1) :
    Set.ncard {x : SigningKey | Obtained xof x ∧ signBit x.to_bytes.1 = 1 ∧ x.get_verifying_key.eq k.get_verifying_key = true} = 2 ^ 10 ∧
    ∀ x, Obtained xof x → signBit x.to_bytes.1 = 1 → x.get_verifying_key.eq k.get_verifying_key = true → ∀ m, x.sign_prehash xof m = k.sign_prehash xof m := by
  have pub : ∀ x, Obtained xof x → signBit x.to_bytes.1 = 1 → x.get_verifying_key.key.1 = RFC.publicOf (RFC.secretScalar x.to_bytes.1) := by
    intro x hx h1
    obtain ⟨A, a1, a2⟩ := C03_derive_direct xof x.to_bytes h1
    rw [RFC.publicOf, ← a2]
    exact congrArg Subtype.val (Except.ok.inj ((C20_verifying_key xof x hx).symm.trans a1))
  constructor
  · obtain ⟨r1, r2, r3⟩ := secretScalar_range k.to_bytes.1
    generalize hS : RFC.secretScalar k.to_bytes.1 = S at *
    have hj : (S - 2 ^ 447) / 4 < 2 ^ 445 := by omega
    have hS' : 4 * ((S - 2 ^ 447) / 4) + 2 ^ 447 = S := by omega
    rw [← (C67_direct xof _ hj).1, hS']
    refine Set.ncard_congr (fun x _ => x.to_bytes) ?_ ?_ ?_
    · rintro x ⟨h1, h2, h3⟩
      refine ⟨h2, _, C20_verifying_key xof x h1, ?_⟩
      rw [VerifyingKey.eq_iff.mp h3, pub k hk hs, hS]
    · rintro x y ⟨h1, _, _⟩ ⟨h2, _, _⟩ h
      exact obtained_ext h1 h2 h
    · rintro b ⟨h1, A, h2, h3⟩
      obtain ⟨x, hx, rfl⟩ := obtained_of_bytes xof b
      refine ⟨x, ⟨hx, h1, ?_⟩, rfl⟩
      rw [VerifyingKey.eq, bytesEq_iff, pub k hk hs, hS, ← h3]
      exact congrArg Subtype.val (Except.ok.inj ((C20_verifying_key xof x hx).symm.trans h2))
  · intro x hx h1 h2 m
    have h3 := VerifyingKey.eq_iff.mp h2
    have h4 : RFC.secretScalar x.to_bytes.1 = RFC.secretScalar k.to_bytes.1 := by
      rw [← publicOf_inj, ← pub x hx h1, ← pub k hk hs, h3]
    obtain ⟨s, a1, a2⟩ := C04_sign_direct xof x.to_bytes m h1
    obtain ⟨s', b1, b2⟩ := C04_sign_direct xof k.to_bytes m hs
    rw [h4, ← b2] at a2
    obtain rfl : s = s' := Subtype.ext a2
    have e : x.verifying_key = k.verifying_key := h3
    rw [SigningKey.sign_prehash, SigningKey.sign_prehash]
    simp only [e]
    rw [show ed448_sign xof x.secret_key.key m = .ok s from a1, show ed448_sign xof k.secret_key.key m = .ok s from b1]

/-- The key with 56 zero bytes and 0x80: there is another one that signs alike. -/
example (xof : Xof) : ∃ k x, Obtained xof k ∧ Obtained xof x ∧ x.eq k = false ∧ ∀ m, x.sign_prehash xof m = k.sign_prehash xof m := by
  obtain ⟨k, hk, hb⟩ := obtained_of_bytes xof Witness.key0
  have hs : signBit k.to_bytes.1 = 1 := by rw [hb]; exact Witness.key0_sign
  obtain ⟨h1, h2⟩ := C102_direct xof k hk hs
  have h3 : ({x : SigningKey | Obtained xof x ∧ signBit x.to_bytes.1 = 1 ∧ x.get_verifying_key.eq k.get_verifying_key = true} \ {k}).ncard ≠ 0 := by
    have := Set.pred_ncard_le_ncard_sdiff_singleton {x : SigningKey | Obtained xof x ∧ signBit x.to_bytes.1 = 1 ∧ x.get_verifying_key.eq k.get_verifying_key = true} k
    rw [h1] at this
    omega
  obtain ⟨x, ⟨a1, a2, a3⟩, a4⟩ := Set.nonempty_of_ncard_ne_zero h3
  exact ⟨k, x, hk, a1, by rw [Bool.eq_false_iff]; exact fun h => a4 (SigningKey.eq_iff.mp h), h2 x a1 a2 a3⟩

/-- C102. Every ordinary signing key has a signing key that is not equal to it and has the same verifying key. -/
theorem C102_ordinary (xof : Xof) (k : SigningKey) (hk : Obtained xof k) (hs : signBit k.to_bytes.1 = 0) :
    ∃ x, Obtained xof x ∧ x.eq k = false ∧ x.get_verifying_key.eq k.get_verifying_key = true := by
  obtain ⟨h1, h2⟩ := C18_private_to_secret xof k.to_bytes
  obtain ⟨x, hx, hb⟩ := obtained_of_bytes xof (private_to_secret xof k.to_bytes)
  refine ⟨x, hx, ?_, ?_⟩
  · rw [Bool.eq_false_iff]
    intro h
    rw [← hb, SigningKey.eq_iff.mp h, hs] at h1
    cases h1
  · have h3 := C20_verifying_key xof x hx
    rw [hb, h2 hs, C20_verifying_key xof k hk] at h3
    rw [VerifyingKey.eq, bytesEq_iff, Except.ok.inj h3]

/-- A signing key made from the first private key of RFC 8032 is ordinary. -/
example (xof : Xof) : ∃ k, Obtained xof k ∧ signBit k.to_bytes.1 = 0 := by
  obtain ⟨x, hx, hb⟩ := obtained_of_bytes xof Witness.rfcKey
  exact ⟨x, hx, by rw [hb]; exact Witness.rfcKey_sign⟩

/-- C102. Verifying keys that are not equal can be the same key for verification: if the library accepts the encodings of a point and of its sum with a point of order two or
four, then they are not equal, but every signature and message gets the same result under both. -/
theorem C102_verifying (xof : Xof) (A T : E) (hT : 4 • T = 0) (hT0 : T ≠ 0) (x y : VerifyingKey) (hx : x.as_bytes = encodePoint (A + T)) (hy : y.as_bytes = encodePoint A)
    (ax : Accepted x.as_bytes) (ay : Accepted y.as_bytes) (zx : x.as_bytes ≠ List.replicate 57 0) (zy : y.as_bytes ≠ List.replicate 57 0) :
    x.eq y = false ∧ ∀ sig m, ed448_verify xof x.as_bytes sig m = ed448_verify xof y.as_bytes sig m := by
  constructor
  · rw [Bool.eq_false_iff]
    intro h
    have h1 := (bytesEq_iff _ _).mp h
    change x.as_bytes = y.as_bytes at h1
    rw [hx, hy, encodePoint_inj] at h1
    exact hT0 (by simpa using h1)
  · intro sig m
    exact (C43_torsion xof _ _ sig m A T hT ax (by rw [hx]; exact decodes_encode _) ay (by rw [hy]; exact decodes_encode _) zx zy).1

/-- The base point, and its sum with the point of order two. -/
example (xof : Xof) : ∃ x y : VerifyingKey, x.eq y = false ∧ ∀ sig m, ed448_verify xof x.as_bytes sig m = ed448_verify xof y.as_bytes sig m := by
  refine ⟨⟨⟨encodePoint (B + T2), encodePoint_length _⟩⟩, ⟨⟨encodePoint B, encodePoint_length _⟩⟩, C102_verifying xof B T2 ?_ ?_ _ _ rfl rfl ?_ Witness.B_accepted ?_ ?_⟩
  · rw [show 4 = 2 * 2 from rfl, mul_smul, two_smul, two_smul, T2_double, add_zero]
  · exact T2_ne_zero
  · show Accepted (encodePoint (B + T2))
    rw [← one_smul ℕ B, accepted_of_coords Witness.B_T2_coords.1 Witness.B_T2_coords.2 (by decide +kernel)]
    decide +kernel
  · show encodePoint (B + T2) ≠ _
    intro h
    rw [← one_smul ℕ B, encode_of_coords Witness.B_T2_coords.1 Witness.B_T2_coords.2 (by decide +kernel) (by decide +kernel)] at h
    exact absurd h (by decide +kernel)
  · have := encode_smul_B_ne_zero 1
    rwa [one_smul] at this

/-- C102. Errors are equal if and only if they have the same message. -/
theorem C102_errors (e e' : Err) : e.eq e' = true ↔ e.display = e'.display := by
  have h : e.eq e' = true ↔ e = e' := by
    cases e <;> cases e' <;> simp [Err.eq]
  rw [h]
  exact ⟨fun h => by rw [h], C53_messages.1 e e'⟩

end Ed448
