import Verif.Eddsa.Repaired
import Verif.Properties.Interop
import Verif.Properties.OffCurve

/-!
# C80: the causes of the deviations

With the six repairs of `Model/Repaired.lean` the properties C05, C06, C27 and C30, which are false of the existing code, hold in full.
-/

set_option exponentiation.threshold 1000

namespace Ed448

theorem Repaired.verify_nonzero {pk sig : List Byte} (h : ¬ ZeroInput pk sig) (xof : Xof) (m : List Byte) :
    Repaired.ed448_verify xof pk sig m = Repaired.dsa_verify xof pk sig m := by
  unfold ZeroInput at h
  rw [Repaired.ed448_verify, if_neg h]

theorem Repaired.verify_zero {pk sig : List Byte} (h : ZeroInput pk sig) (xof : Xof) (m : List Byte) :
    Repaired.ed448_verify xof pk sig m = .ok (.error .InvalidSignatureError) := by
  unfold ZeroInput at h
  rw [Repaired.ed448_verify, if_pos h]
  rfl

theorem decodesTo_unique {b : List Byte} {A C : E} (h : RFC.DecodesTo b A) (h' : RFC.DecodesTo b C) : A = C :=
  encodePoint_inj.mp ((decodesTo_iff.mp h).symm.trans (decodesTo_iff.mp h'))

/-- C80, verification. After the repairs the accepted signatures are exactly those that are valid by RFC 8032, except for the
all-zero key and the all-zero signature, and verification never panics. -/
theorem C80_exact (xof : Xof) (pk sig m : List Byte) :
    (Repaired.ed448_verify xof pk sig m = .ok (.ok true) ↔ ¬ ZeroInput pk sig ∧ RFC.Valid xof pk m sig) ∧
    ∃ r, Repaired.ed448_verify xof pk sig m = .ok r := by
  by_cases hz : ZeroInput pk sig
  · rw [Repaired.verify_zero hz]
    refine ⟨?_, _, rfl⟩
    simp [hz]
  rw [Repaired.verify_nonzero hz]
  rcases Repaired.dsa_verify_cases xof pk sig m with ⟨h1, h2⟩ | ⟨_, h1, h2⟩ | ⟨A, hA, ⟨h1, h2⟩ | ⟨_, h1, h2⟩ | ⟨hl, R, r, hR, h2, h3⟩⟩ <;> rw [h2]
  · refine ⟨⟨fun h => by simp at h, ?_⟩, _, rfl⟩
    rintro ⟨_, _, A, _, hA, _⟩
    exact absurd hA.1 h1
  · refine ⟨⟨fun h => by simp at h, ?_⟩, _, rfl⟩
    rintro ⟨_, _, A, _, hA, _⟩
    exact absurd ⟨A, hA⟩ h1
  · refine ⟨⟨fun h => by simp at h, ?_⟩, _, rfl⟩
    rintro ⟨_, h3, _⟩
    exact absurd h3 h1
  · refine ⟨⟨fun h => by simp at h, ?_⟩, _, rfl⟩
    rintro ⟨_, _, _, R, _, hR, _⟩
    exact absurd ⟨R, hR⟩ h1
  · refine ⟨⟨fun h => ?_, ?_⟩, _, rfl⟩
    · injection h with h
      injection h with h
      obtain ⟨h4, h5⟩ := h3.mp h
      exact ⟨hz, hl, A, R, hA, hR, h4, h5⟩
    · rintro ⟨_, _, A', R', hA', hR', h4, h5⟩
      rw [decodesTo_unique hA' hA, decodesTo_unique hR' hR] at h5
      rw [h3.mpr ⟨h4, h5⟩]

/-- A key that is not on the curve, which the existing code accepts with a signature of every message for some hash function
(`C06_refuted`), is rejected. -/
example (xof : Xof) (sig m : List Byte) : Repaired.ed448_verify xof Witness.offKey sig m ≠ .ok (.ok true) := by
  intro h
  obtain ⟨_, _, A, _, hA, _⟩ := (C80_exact xof Witness.offKey sig m).1.mp h
  exact Witness.off_not_point ⟨A, by rw [hA.2.2.2.1, Witness.offKey_y]⟩

/-- C80, round trip (C05 in full): after the repairs every signature made by the library is accepted under its public key. -/
theorem C80_roundtrip (xof : Xof) (k : Arr Byte 57) (m : List Byte) :
    ∃ A sig, ed448_derive_public xof k = .ok A ∧ ed448_sign xof k m = .ok sig ∧
      Repaired.ed448_verify xof A.1 sig.1 m = .ok (.ok true) := by
  obtain ⟨A, sig, h1, h2, h3, _⟩ := C57_valid_elsewhere xof k m
  refine ⟨A, sig, h1, h2, (C80_exact xof A.1 sig.1 m).1.mpr ⟨?_, h3⟩⟩
  obtain ⟨A', a1, a2⟩ := derive_spec xof k
  obtain ⟨sig', s1, s2⟩ := sign_spec xof k m
  rw [h1] at a1
  rw [h2] at s1
  injection a1 with a1
  injection s1 with s1
  subst a1 s1
  rintro (h | h)
  · rw [a2] at h
    exact encode_smul_B_ne_zero _ h
  · have h4 := congrArg (List.take 57) h
    rw [s2, (sign_eq_parts xof _ _ m).1] at h4
    exact encode_smul_B_ne_zero _ (h4.trans (by simp))

/-- For this key the existing code rejects its own signatures. -/
example (xof : Xof) (m : List Byte) : ∃ A sig, ed448_derive_public xof Witness.badKey = .ok A ∧ ed448_sign xof Witness.badKey m = .ok sig ∧
    ed448_verify xof A.1 sig.1 m = .ok (.error .DecodePubkeyError) ∧ Repaired.ed448_verify xof A.1 sig.1 m = .ok (.ok true) := by
  obtain ⟨A, sig, h1, h2, _, h4, _⟩ := C05_roundtrip_partial xof Witness.badKey m
  obtain ⟨A', sig', g1, g2, g3⟩ := C80_roundtrip xof Witness.badKey m
  obtain ⟨A'', a1, a2⟩ := C03_derive_direct xof Witness.badKey Witness.badKey_sign
  rw [h1] at a1 g1
  rw [h2] at g2
  injection a1 with a1
  injection g1 with g1
  injection g2 with g2
  subst a1 g1 g2
  refine ⟨A, sig, h1, h2, h4 ?_, g3⟩
  rw [a2, Witness.badKey_scalar]
  exact Witness.bad_rejected

/-- C80, `sign_prehash` (C27 in full): the first 114 bytes of the result are accepted under the key in the other 57. -/
theorem C80_prehash (xof : Xof) (k : SigningKey) (hk : Obtained xof k) (h : List Byte) :
    ∃ S, k.sign_prehash xof h = .ok (.ok S) ∧
      Repaired.ed448_verify xof (S.as_slice.drop 114) (S.as_slice.take 114) h = .ok (.ok true) := by
  obtain ⟨sig, S, s1, s2, s3, s4⟩ := C26_prehash_layout xof k h
  obtain ⟨A, sig', a1, a2, a3⟩ := C80_roundtrip xof k.to_bytes h
  rw [s1] at a2
  injection a2 with a2
  subst a2
  rw [C20_verifying_key xof k hk] at a1
  injection a1 with a1
  subst a1
  have e1 : S.as_slice.drop 114 = k.get_verifying_key.key.1 := by rw [s4, List.drop_left' sig.2]; rfl
  have e2 : S.as_slice.take 114 = sig.1 := by rw [s4, List.take_left' sig.2]
  exact ⟨S, s2, by rw [e1, e2]; exact a3⟩

example (xof : Xof) : ∃ k, Obtained xof k ∧ k.to_bytes = Witness.badKey := by
  obtain ⟨A, _, h, _⟩ := from_slice_spec (xof := xof) Witness.badKey.2
  exact ⟨_, .from_slice h, rfl⟩

/-- C80, decoding (C30 in full): after the repairs the decoder accepts exactly the encodings of the points of the curve; a key that is
not the encoding of a point is rejected. -/
theorem C80_decode (xof : Xof) (pk sig m : List Byte) (hl : pk.length = 57) :
    ((¬ ∃ A : E, pk = encodePoint A) → ¬ ZeroInput pk sig → Repaired.ed448_verify xof pk sig m = .ok (.error .DecodePubkeyError)) ∧
    ((∃ A : E, pk = encodePoint A) → Repaired.ed448_verify xof pk sig m ≠ .ok (.error .DecodePubkeyError)) := by
  have e : (∃ A : E, pk = encodePoint A) ↔ ∃ A, RFC.DecodesTo pk A := by simp only [decodesTo_iff]
  rw [e]
  constructor
  · intro h hz
    rw [Repaired.verify_nonzero hz]
    rcases Repaired.dsa_verify_cases xof pk sig m with ⟨h1, _⟩ | ⟨_, _, h2⟩ | ⟨A, hA, _⟩
    · exact absurd hl h1
    · exact h2
    · exact absurd ⟨A, hA⟩ h
  · intro h
    by_cases hz : ZeroInput pk sig
    · rw [Repaired.verify_zero hz]
      simp
    · rw [Repaired.verify_nonzero hz]
      rcases Repaired.dsa_verify_cases xof pk sig m with ⟨h1, _⟩ | ⟨_, h1, _⟩ | ⟨A, hA, ⟨h1, h2⟩ | ⟨_, h1, h2⟩ | ⟨_, R, r, hR, h2, h3⟩⟩
      · exact absurd hl h1
      · exact absurd h h1
      all_goals rw [h2]; simp

/-- Both cases occur. -/
example : (¬ ∃ A : E, Witness.offKey = encodePoint A) ∧ (∃ A : E, RFC.publicOf Witness.badS = encodePoint A) :=
  ⟨fun ⟨A, h⟩ => Witness.off_not_point ⟨A, by
    have := (decodesTo_iff.mpr h).2.2.2.1
    rw [this, Witness.offKey_y]⟩, ⟨_, rfl⟩⟩

/-- C80, what changes: a signature accepted after the repairs under a key without small-order component is accepted by the existing code
too, if its decoder accepts the two strings. -/
theorem C80_conservative (xof : Xof) (pk sig m : List Byte) (A : E) (h : Repaired.ed448_verify xof pk sig m = .ok (.ok true))
    (hA : pk = encodePoint A) (h0 : q • A = 0) (hp : Accepted pk) (hr : Accepted (sig.take 57)) :
    ed448_verify xof pk sig m = .ok (.ok true) := by
  obtain ⟨hz, hl, A', R, hA', hR, hS, heq⟩ := (C80_exact xof pk sig m).1.mp h
  have hAA : A' = A := decodesTo_unique hA' (decodesTo_iff.mpr hA)
  rw [hAA] at heq hA'
  refine C07_complete xof pk sig m A R hz hp ⟨hA'.2.2.2.1, Or.inr hA'.2.2.2.2⟩ hl.ge hr ⟨hR.2.2.2.1, Or.inr hR.2.2.2.2⟩ ?_
  rw [List.take_of_length_le (by simp [hl]), add_smul, h0, zero_add, one_smul, ← hA]
  exact heq

/-- A key, a hash and a signature of every message that meet the hypotheses. -/
example (m : List Byte) : ∃ A sig, ed448_derive_public Witness.oneXof Witness.key0 = .ok A ∧ ed448_sign Witness.oneXof Witness.key0 m = .ok sig ∧
    Repaired.ed448_verify Witness.oneXof A.1 sig.1 m = .ok (.ok true) ∧ Accepted A.1 ∧ Accepted (sig.1.take 57) ∧
    ∃ P : E, A.1 = encodePoint P ∧ q • P = 0 := by
  obtain ⟨A, sig, h1, h2, h3⟩ := C80_roundtrip Witness.oneXof Witness.key0 m
  obtain ⟨A', a1, a2⟩ := C03_derive_direct Witness.oneXof Witness.key0 Witness.key0_sign
  rw [h1] at a1
  injection a1 with a1
  subst a1
  refine ⟨A, sig, h1, h2, h3, by rw [a2]; exact Witness.key0_accepted, ?_, _, a2, ?_⟩
  · obtain ⟨S', a1, a2⟩ := C04_sign_direct Witness.oneXof Witness.key0 m Witness.key0_sign
    rw [h2] at a1
    injection a1 with a1
    rw [a1, a2, (sign_eq_parts _ _ _ _).1]
    have e : ∀ s, leNat (RFC.hash Witness.oneXof s 114) = 1 := fun s => by
      rw [show RFC.hash Witness.oneXof s 114 = RFC.hash Witness.oneXof [] 114 from rfl]
      decide +kernel
    rw [RFC.nonce, e, one_smul]
    exact Witness.B_accepted
  · rw [smul_comm, q_smul_B, smul_zero]

end Ed448
