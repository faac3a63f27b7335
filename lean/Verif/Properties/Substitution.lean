import Verif.Properties.Forgery
import Verif.Properties.Verify

/-!
# C85: one signature under two keys
-/

namespace Ed448

set_option exponentiation.threshold 1000

/-- The multiples of two points by 4 agree if and only if the points agree after removal of their components of small order. -/
theorem four_eq_iff (A A' : E) : 4 • A = 4 • A' ↔ (q + 1) • A = (q + 1) • A' := by
  have h4 := q_mod_four
  constructor
  · intro h
    have := congrArg (((q + 1) / 4) • ·) h
    simp only [smul_smul] at this
    rwa [Nat.div_mul_cancel (by omega)] at this
  · intro h
    obtain ⟨n, _, hn⟩ := four_mem_B A
    obtain ⟨n', _, hn'⟩ := four_mem_B A'
    have := congrArg (4 • ·) h
    rw [smul_comm, smul_comm 4 (q + 1), hn, hn', cleared_smul_B, cleared_smul_B] at this
    rw [hn, hn', this]

/-- C85. One signature that is valid under two keys (for any two messages): the multiples of the keys by the challenges agree up to components of small order.
Conversely, if they do and the signature is valid under the first, it is valid under the second. -/
theorem C85_two_keys (xof : Xof) (pk pk' m m' sig : List Byte) (A A' : E) (hA : RFC.DecodesTo pk A) (hA' : RFC.DecodesTo pk' A') (h : RFC.Valid xof pk m sig) :
    RFC.Valid xof pk' m' sig ↔
      4 • (RFC.challenge xof (sig.take 57) pk m • A) = 4 • (RFC.challenge xof (sig.take 57) pk' m' • A') := by
  obtain ⟨hl, A1, R, d1, d2, hS, he⟩ := h
  have e1 : A1 = A := by
    rw [decodesTo_iff] at d1 hA
    exact encodePoint_inj.mp (d1.symm.trans hA)
  subst e1
  rw [RFC.Equation] at he
  constructor
  · rintro ⟨_, A2, R', d1', d2', _, he'⟩
    have e2 : A2 = A' := by
      rw [decodesTo_iff] at d1' hA'
      exact encodePoint_inj.mp (d1'.symm.trans hA')
    have e3 : R' = R := by
      rw [decodesTo_iff] at d2 d2'
      exact encodePoint_inj.mp (d2'.symm.trans d2)
    subst e2 e3
    rw [RFC.Equation, he, add_right_inj] at he'
    exact he'
  · intro e
    exact ⟨hl, A', R, hA', d2, hS, by rw [RFC.Equation, he, e]⟩

/-- C85. If the challenges agree modulo the order and are not 0, the keys agree up to a component of small order (so that this library treats them alike, C43). -/
theorem C85_same_challenge (xof : Xof) (pk pk' m m' sig : List Byte) (A A' : E) (hA : RFC.DecodesTo pk A) (hA' : RFC.DecodesTo pk' A')
    (h : RFC.Valid xof pk m sig) (h' : RFC.Valid xof pk' m' sig)
    (hc : RFC.challenge xof (sig.take 57) pk m % q = RFC.challenge xof (sig.take 57) pk' m' % q) (hne : RFC.challenge xof (sig.take 57) pk m % q ≠ 0) :
    4 • A = 4 • A' ∧ (q + 1) • A = (q + 1) • A' := by
  rw [← four_eq_iff, and_self]
  have e := (C85_two_keys xof pk pk' m m' sig A A' hA hA' h).mp h'
  generalize RFC.challenge xof (sig.take 57) pk m = c at *
  generalize RFC.challenge xof (sig.take 57) pk' m' = c' at *
  obtain ⟨n, _, hn⟩ := four_mem_B A
  obtain ⟨n', _, hn'⟩ := four_mem_B A'
  rw [smul_comm 4 c, smul_comm 4 c', hn, hn', smul_smul, smul_smul, smul_B_inj, ← ZMod.natCast_eq_natCast_iff'] at e
  rw [hn, hn', smul_B_inj, ← ZMod.natCast_eq_natCast_iff']
  rw [← ZMod.natCast_eq_natCast_iff'] at hc
  push_cast at e
  rw [← hc] at e
  refine mul_left_cancel₀ (fun h0 => hne ?_) e
  rw [ZMod.natCast_eq_zero_iff] at h0
  exact Nat.mod_eq_zero_of_dvd h0

/-- C85. For a given signature and a message, and a key that is not of small order: the signature is valid for at most `2^912 / q + 1` of the `2^912` outputs
of the hash function on the string hashed for the challenge. -/
theorem C85_luck (xof : Xof) (pk m sig : List Byte) (A : E) (hA : RFC.DecodesTo pk A) (hn : 4 • A ≠ 0) :
    Set.ncard {h | RFC.Valid (reprogram xof (RFC.dom4 ++ sig.take 57 ++ pk ++ m) h) pk m sig} ≤ 2 ^ 912 / q + 1 := by
  rcases Set.eq_empty_or_nonempty {h | RFC.Valid (reprogram xof (RFC.dom4 ++ sig.take 57 ++ pk ++ m) h) pk m sig} with he | ⟨h0, v0⟩
  · rw [he, Set.ncard_empty]
    exact Nat.zero_le _
  have hsub : {h | RFC.Valid (reprogram xof (RFC.dom4 ++ sig.take 57 ++ pk ++ m) h) pk m sig} ⊆
      {h : Fin 114 → Byte | leNat (List.ofFn h) % q = leNat (List.ofFn h0) % q} := by
    intro h v
    obtain ⟨_, A1, R, d1, d2, _, e⟩ := v
    obtain ⟨_, A1', R', d1', d2', _, e'⟩ := v0
    rw [decodesTo_iff] at d1 d1' d2 d2' hA
    obtain rfl := encodePoint_inj.mp (d1.symm.trans hA)
    obtain rfl := encodePoint_inj.mp (d1'.symm.trans hA)
    obtain rfl := encodePoint_inj.mp (d2'.symm.trans d2)
    rw [challenge_reprogram] at e e'
    exact ((C65_equation _ _ _ _ _ hn e).mp e')
  have : Finite Byte := Finite.of_injective _ BitVec.toFin_injective
  refine le_trans (Set.ncard_le_ncard hsub (Set.toFinite _)) ?_
  have hN := ncard_strings 114 (fun v => v % q = leNat (List.ofFn h0) % q)
  rw [show 256 ^ 114 = 2 ^ 912 by norm_num] at hN
  rw [hN]
  rcases ncard_residue (2 ^ 912) q (leNat (List.ofFn h0) % q) q_pos (Nat.mod_lt _ q_pos) with h | h <;> omega

/-- C85. Under a key of small order validity depends neither on the message nor on the hash function: exactly the signatures with S B equal to R up
to a component of small order are valid. -/
theorem C85_small_order (xof : Xof) (pk m sig : List Byte) (A R : E) (hA : RFC.DecodesTo pk A) (hn : 4 • A = 0) (hl : sig.length = 114)
    (hR : RFC.DecodesTo (sig.take 57) R) (hS : leNat (sig.drop 57) < q) :
    RFC.Valid xof pk m sig ↔ 4 • (leNat (sig.drop 57) • B) = 4 • R := by
  have hz : ∀ c : ℕ, 4 • (c • A) = 0 := fun c => by rw [smul_comm, hn, smul_zero]
  constructor
  · rintro ⟨_, A1, R1, d1, d2, _, e⟩
    rw [decodesTo_iff] at d1 d2 hA hR
    obtain rfl := encodePoint_inj.mp (d1.symm.trans hA)
    obtain rfl := encodePoint_inj.mp (d2.symm.trans hR)
    rw [RFC.Equation, hz, add_zero] at e
    exact e
  · intro e
    exact ⟨hl, A, R, hA, hR, hS, by rw [RFC.Equation, hz, add_zero, e]⟩

/-- The signature with R = B and S = 2. -/
theorem Witness.sig_valid (m : List Byte) (A : E) (h : 4 • A = 4 • B) :
    RFC.Valid Witness.oneXof (encodePoint A) m (encodePoint B ++ leBytes 57 2) := by
  have hl := encodePoint_length B
  have e : ∀ s, leNat (RFC.hash Witness.oneXof s 114) = 1 := fun s => by
    rw [show RFC.hash Witness.oneXof s 114 = RFC.hash Witness.oneXof [] 114 from rfl]
    decide +kernel
  have h2 : leNat (leBytes 57 2) = 2 := by rw [leNat_leBytes]; norm_num
  refine ⟨by simp [hl], A, B, decodesTo_iff.mpr rfl, ?_, ?_, ?_⟩
  · rw [List.take_left' hl]
    exact decodesTo_iff.mpr rfl
  · rw [List.drop_left' hl, h2, ← qN_eq]
    decide +kernel
  · rw [List.drop_left' hl, h2, RFC.Equation, RFC.challenge, e, one_smul, h, two_smul, smul_add]

/-- With the hash function that always returns 1, 0, 0, ..., it is valid for all messages under the two keys B and B + (0, -1). -/
example (m m' : List Byte) : RFC.Valid Witness.oneXof (encodePoint B) m (encodePoint B ++ leBytes 57 2) ∧
    RFC.Valid Witness.oneXof (encodePoint (B + T2)) m' (encodePoint B ++ leBytes 57 2) ∧ encodePoint B ≠ encodePoint (B + T2) ∧
    RFC.DecodesTo (encodePoint B) B ∧ RFC.DecodesTo (encodePoint (B + T2)) (B + T2) ∧ 4 • B ≠ 0 := by
  have hT : 4 • T2 = 0 := by rw [Edw.four_eq, T2_double, add_zero]
  refine ⟨Witness.sig_valid m B rfl, Witness.sig_valid m' _ (by rw [smul_add, hT, add_zero]), fun h => ?_, decodesTo_iff.mpr rfl, decodesTo_iff.mpr rfl, ?_⟩
  · exact T2_ne_zero (by simpa using (encodePoint_inj.mp h).symm)
  · have := four_smul_B_ne (n := 1) (by rw [one_smul]; exact B_ne_zero)
    rwa [one_smul] at this

/-- C85, for the verification of this library: a signature that is valid under some key is also accepted under every other key in the subgroup generated by the base
point for which the multiples by the challenges agree, unless the decoder rejects the other key or the first half of the signature. -/
theorem C85_accepted (xof : Xof) (pk pk' m m' sig : List Byte) (A : E) (n : ℕ) (hA : RFC.DecodesTo pk A) (hA' : RFC.DecodesTo pk' (n • B))
    (h : RFC.Valid xof pk m sig) (hz : sig ≠ List.replicate 114 0)
    (e : 4 • (RFC.challenge xof (sig.take 57) pk m • A) = 4 • (RFC.challenge xof (sig.take 57) pk' m' • (n • B)))
    (hp : Accepted pk') (hr : Accepted (sig.take 57)) : ed448_verify xof pk' sig m' = .ok (.ok true) :=
  (C58_valid_accepted xof pk' sig m' n ((C85_two_keys xof pk pk' m m' sig A (n • B) hA hA' h).mpr e) hA' hz).1 hp hr

/-- Under the neutral element as key the signature R = B, S = 1 is valid for all messages and hash functions. -/
example (xof : Xof) (m : List Byte) : RFC.Valid xof (encodePoint 0) m (encodePoint B ++ leBytes 57 1) := by
  have hl := encodePoint_length B
  have h1 : leNat (leBytes 57 1) = 1 := by rw [leNat_leBytes]; norm_num
  refine (C85_small_order xof _ m _ 0 B (decodesTo_iff.mpr rfl) (smul_zero 4) (by simp [hl]) ?_ ?_).mpr ?_
  · rw [List.take_left' hl]
    exact decodesTo_iff.mpr rfl
  · rw [List.drop_left' hl, h1, ← qN_eq]
    decide +kernel
  · rw [List.drop_left' hl, h1, one_smul]

end Ed448
