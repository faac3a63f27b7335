import Verif.Properties.Keys

/-!
# Verification: C05 to C15, C46
-/

set_option exponentiation.threshold 1000

namespace Ed448

/-- The all-zero key and the all-zero signature, which verification refuses. -/
def ZeroInput (pk sig : List (BitVec 8)) : Prop := pk = List.replicate 57 0 ∨ sig = List.replicate 114 0

theorem verify_nonzero {pk sig : List Byte} (h : ¬ ZeroInput pk sig) (xof : Xof) (m : List Byte) :
    ed448_verify xof pk sig m = dsa_verify xof pk sig m := by
  unfold ZeroInput at h
  rw [ed448_verify, if_neg h]

/-- C13. The all-zero key and the all-zero signature are rejected, whatever the other arguments are. -/
theorem C13_zero_rejected (xof : Xof) (pk sig m : List Byte) (h : pk = List.replicate 57 0 ∨ sig = List.replicate 114 0) :
    ed448_verify xof pk sig m = .ok (.error .InvalidSignatureError) := by
  rw [ed448_verify, if_pos h]
  rfl

example (xof : Xof) : ed448_verify xof (List.replicate 57 0) [1, 2, 3] [4] = .ok (.error .InvalidSignatureError) :=
  C13_zero_rejected xof _ _ _ (Or.inl rfl)

/-- C14. Keys of the wrong length are rejected before anything else is looked at. -/
theorem C14_wrong_length (xof : Xof) (pk sig m : List Byte) (h : pk.length ≠ 57) :
    ed448_verify xof pk sig m = .ok (.error (if sig = List.replicate 114 0 then .InvalidSignatureError else .InvalidPubkeyLengthError)) := by
  by_cases hs : sig = List.replicate 114 0
  · rw [if_pos hs]
    exact C13_zero_rejected xof pk sig m (Or.inr hs)
  · rw [if_neg hs, verify_nonzero (by rintro (h1 | h1); exacts [h (by rw [h1]; simp), hs h1])]
    rcases dsa_verify_cases xof pk sig m with ⟨_, e⟩ | ⟨h1, _⟩ | ⟨h1, _⟩ | ⟨h1, _⟩ | ⟨h1, _⟩
    · exact e
    · exact absurd h1 h
    all_goals exact absurd h1.1 h

example : ([] : List Byte).length ≠ 57 ∧ (List.replicate 58 (1 : Byte)).length ≠ 57 := by simp

/-- C08. Which error is returned, and when: the all-zero inputs, then the length of the key, then the decoding of the key, then the
decoding of the first half of the signature. No other error is ever returned. -/
theorem C08_errors (xof : Xof) (pk sig m : List Byte) (e : Err) :
    ed448_verify xof pk sig m = .ok (.error e) ↔
      (ZeroInput pk sig ∧ e = .InvalidSignatureError) ∨
      (¬ ZeroInput pk sig ∧ pk.length ≠ 57 ∧ e = .InvalidPubkeyLengthError) ∨
      (¬ ZeroInput pk sig ∧ pk.length = 57 ∧ ¬ Accepted pk ∧ e = .DecodePubkeyError) ∨
      (¬ ZeroInput pk sig ∧ Accepted pk ∧ 114 ≤ sig.length ∧ ¬ Accepted (sig.take 57) ∧ e = .DecodeSignatureError) := by
  by_cases hz : ZeroInput pk sig
  · rw [C13_zero_rejected xof pk sig m hz]
    simp only [hz, Except.ok.injEq, Except.error.injEq, eq_comm (a := Err.InvalidSignatureError)]
    tauto
  · rw [verify_nonzero hz]
    rcases dsa_verify_cases xof pk sig m with ⟨h1, h2⟩ | ⟨h1, h2, h3⟩ | ⟨h1, h2, h3⟩ | ⟨h1, h2, h3, h4⟩ | ⟨h1, h2, h3, P, Q, _, h4, _⟩
    · have ha : ¬ Accepted pk := fun h => h1 h.1
      rw [h2]
      simp only [hz, h1, ha, Except.ok.injEq, Except.error.injEq, eq_comm (b := e)]
      tauto
    · rw [h3]
      simp only [hz, h1, h2, Except.ok.injEq, Except.error.injEq, eq_comm (b := e)]
      tauto
    · rw [h3]
      have h4 : ¬ 114 ≤ sig.length := by omega
      have h5 := h1.1
      simp only [hz, h1, h4, h5]
      simp
    · rw [h4]
      have h5 := h1.1
      simp only [hz, h1, h2, h3, h5, Except.ok.injEq, Except.error.injEq, eq_comm (b := e)]
      tauto
    · rw [h4]
      have h5 := h1.1
      simp only [hz, h1, h2, h3, h5]
      simp

/-- Every one of the four errors occurs. -/
example (xof : Xof) (m : List Byte) :
    ed448_verify xof (List.replicate 57 0) [] m = .ok (.error .InvalidSignatureError) ∧
    ed448_verify xof [] [] m = .ok (.error .InvalidPubkeyLengthError) ∧
    ed448_verify xof (RFC.publicOf Witness.badS) [] m = .ok (.error .DecodePubkeyError) ∧
    ed448_verify xof (encodePoint B) (RFC.publicOf Witness.badS ++ List.replicate 57 0) m = .ok (.error .DecodeSignatureError) := by
  have hbl : (RFC.publicOf Witness.badS).length = 57 := encodePoint_length _
  have hbz : RFC.publicOf Witness.badS ≠ List.replicate 57 0 := encode_smul_B_ne_zero _
  refine ⟨(C08_errors ..).mpr (Or.inl ⟨Or.inl rfl, rfl⟩), (C08_errors ..).mpr (Or.inr (Or.inl ⟨?_, by simp, rfl⟩)),
    (C08_errors ..).mpr (Or.inr (Or.inr (Or.inl ⟨?_, hbl, Witness.bad_rejected, rfl⟩))),
    (C08_errors ..).mpr (Or.inr (Or.inr (Or.inr ⟨?_, Witness.B_accepted, by simp [hbl], ?_, rfl⟩)))⟩
  · rintro (h | h) <;> exact absurd (congrArg List.length h) (by simp)
  · rintro (h | h)
    · exact hbz h
    · exact absurd (congrArg List.length h) (by simp)
  · rintro (h | h)
    · exact encode_smul_B_ne_zero 1 (by rw [one_smul]; exact h)
    · have := congrArg (List.take 57) h
      rw [List.take_left' hbl] at this
      exact hbz (this.trans (by simp))
  · rw [List.take_left' hbl]
    exact Witness.bad_rejected

/-- C09. Verification panics exactly if the key is accepted and the signature is shorter than 114 bytes; the panic is the slicing of the
signature. -/
theorem C09_panic_iff (xof : Xof) (pk sig m : List Byte) (why : Panic) :
    (ed448_verify xof pk sig m = .error why ↔ pk ≠ List.replicate 57 0 ∧ Accepted pk ∧ sig.length < 114 ∧ why = .bounds) ∧
    (ed448_verify_with_error xof pk sig m = .error why ↔ ed448_verify xof pk sig m = .error why) := by
  constructor
  · by_cases hz : ZeroInput pk sig
    · rw [C13_zero_rejected xof pk sig m hz]
      constructor
      · simp
      · rintro ⟨h1, h2, h3, _⟩
        rcases hz with h | h
        · exact absurd h h1
        · rw [h] at h3
          simp at h3
    · rw [verify_nonzero hz]
      have hp : pk ≠ List.replicate 57 0 := fun h => hz (Or.inl h)
      rcases dsa_verify_cases xof pk sig m with ⟨h1, h2⟩ | ⟨h1, h2, h3⟩ | ⟨h1, h2, h3⟩ | ⟨h1, h2, h3, h4⟩ | ⟨h1, h2, h3, P, Q, _, h4, _⟩
      · rw [h2]
        simp only [reduceCtorEq, false_iff]
        exact fun h => h1 h.2.1.1
      · rw [h3]
        simp only [reduceCtorEq, false_iff]
        exact fun h => h2 h.2.1
      · rw [h3]
        constructor
        · intro h
          injection h with h
          exact ⟨hp, h1, h2, h.symm⟩
        · rintro ⟨_, _, _, rfl⟩
          rfl
      · rw [h4]
        simp only [reduceCtorEq, false_iff]
        exact fun h => by omega
      · rw [h4]
        simp only [reduceCtorEq, false_iff]
        exact fun h => by omega
  · rw [ed448_verify, ed448_verify_with_error]
    split
    · simp [pure, Except.pure]
    · rcases dsa_verify xof pk sig m with w | (e | b)
      · simp [bind, Except.bind]
      · simp [bind, Except.bind, pure, Except.pure]
      · cases b <;> simp [bind, Except.bind, pure, Except.pure]

/-- The base point as key and the empty signature. -/
example (xof : Xof) (m : List Byte) : ed448_verify xof (encodePoint B) [] m = .error .bounds :=
  (C09_panic_iff xof _ _ _ _).1.mpr ⟨by have := encode_smul_B_ne_zero 1; rwa [one_smul] at this, Witness.B_accepted, by simp, rfl⟩

/-- C12. `ed448_verify_with_error` is `ed448_verify` with `Ok(false)` turned into an error. -/
theorem C12_with_error (xof : Xof) (pk sig m : List Byte) :
    ed448_verify_with_error xof pk sig m =
      match ed448_verify xof pk sig m with
      | .error why => .error why
      | .ok (.error e) => .ok (.error e)
      | .ok (.ok false) => .ok (.error .InvalidSignatureError)
      | .ok (.ok true) => .ok (.ok ()) := by
  rw [ed448_verify, ed448_verify_with_error]
  split
  · rfl
  · rcases dsa_verify xof pk sig m with w | (e | b)
    · rfl
    · rfl
    · cases b <;> rfl

/-- C07. If the key and R decode and the group equation holds, with the challenge computed from the given R, the encoding of the
key with its small-order component removed and the message, then the signature is accepted. -/
theorem C07_complete (xof : Xof) (pk sig m : List Byte) (A R : E) (hz : ¬ ZeroInput pk sig) (hp : Accepted pk) (hA : Decodes pk A)
    (hl : 114 ≤ sig.length) (hr : Accepted (sig.take 57)) (hR : Decodes (sig.take 57) R)
    (heq : RFC.Equation (leNat ((sig.drop 57).take 57)) R A (RFC.challenge xof (sig.take 57) (encodePoint ((q + 1) • A)) m)) :
    ed448_verify xof pk sig m = .ok (.ok true) := by
  rw [verify_nonzero hz]
  rcases dsa_verify_cases xof pk sig m with ⟨h1, h2⟩ | ⟨h1, h2, h3⟩ | ⟨h1, h2, h3⟩ | ⟨h1, h2, h3, h4⟩ | ⟨h1, h2, h3, P, Q, _, h4, h5⟩
  · exact absurd hp.1 h1
  · exact absurd hp h2
  · omega
  · exact absurd hr h3
  · rw [h4]
    have h6 := (h5 A R hA hR).mpr heq
    rw [h6]
    have : LowZero 0 := LowZero_zero
    simp [this]

/-- C06, partial. An accepted signature has an accepted key and an accepted first half, and the two points `P` and `Q` compared by the
verifier have coordinates whose cross difference is zero except possibly in its 28 most significant bits. If the strings decode to
points of the curve, the cross difference is zero exactly if the equation of RFC 8032 holds. Missing for C06: that the difference
is exactly zero, and that the strings are encodings of points, which is false (`C06_refuted`). -/
theorem C06_sound_partial (xof : Xof) (pk sig m : List Byte) (h : ed448_verify xof pk sig m = .ok (.ok true)) :
    ¬ ZeroInput pk sig ∧ Accepted pk ∧ 114 ≤ sig.length ∧ Accepted (sig.take 57) ∧
      ∃ P Q : Pt, Compared xof pk sig m P Q ∧ (cross P Q).val % 2 ^ 420 = 0 ∧
        ∀ A R, Decodes pk A → Decodes (sig.take 57) R → (cross P Q = 0 ↔
          RFC.Equation (leNat ((sig.drop 57).take 57)) R A (RFC.challenge xof (sig.take 57) (encodePoint ((q + 1) • A)) m)) := by
  have hz : ¬ ZeroInput pk sig := by
    intro hz
    rw [C13_zero_rejected xof pk sig m hz] at h
    simp at h
  rw [verify_nonzero hz] at h
  rcases dsa_verify_cases xof pk sig m with ⟨h1, h2⟩ | ⟨h1, h2, h3⟩ | ⟨h1, h2, h3⟩ | ⟨h1, h2, h3, h4⟩ | ⟨h1, h2, h3, P, Q, hc, h4, h5⟩
  · rw [h2] at h; simp at h
  · rw [h3] at h; simp at h
  · rw [h3] at h; simp at h
  · rw [h4] at h; simp at h
  · rw [h4] at h
    refine ⟨hz, h1, h2, h3, P, Q, hc, ?_, h5⟩
    injection h with h
    injection h with h
    exact of_decide_eq_true h

/-- A rejected signature does not satisfy the equation. -/
theorem C06_reject (xof : Xof) (pk sig m : List Byte) (A R : E) (h : ed448_verify xof pk sig m = .ok (.ok false)) (hA : Decodes pk A)
    (hR : Decodes (sig.take 57) R) :
    ¬ RFC.Equation (leNat ((sig.drop 57).take 57)) R A (RFC.challenge xof (sig.take 57) (encodePoint ((q + 1) • A)) m) := by
  intro heq
  by_cases hz : ZeroInput pk sig
  · rw [C13_zero_rejected xof pk sig m hz] at h
    simp at h
  · have h0 := h
    rw [verify_nonzero hz] at h
    rcases dsa_verify_cases xof pk sig m with ⟨h1, h2⟩ | ⟨h1, h2, h3⟩ | ⟨h1, h2, h3⟩ | ⟨h1, h2, h3, h4⟩ | ⟨h1, h2, h3, P, Q, hc, h4, h5⟩
    · rw [h2] at h; simp at h
    · rw [h3] at h; simp at h
    · rw [h3] at h; simp at h
    · rw [h4] at h; simp at h
    · rw [C07_complete xof pk sig m A R hz h1 hA h2 h3 hR heq] at h0
      simp at h0

theorem sign_eq_parts (xof : Xof) (s : ℕ) (pre m : List Byte) :
    (RFC.signWith xof s pre m).take 57 = encodePoint (RFC.nonce xof pre m • B) ∧
    ((RFC.signWith xof s pre m).drop 57).take 57 = leBytes 57 ((RFC.nonce xof pre m +
      RFC.challenge xof (encodePoint (RFC.nonce xof pre m • B)) (RFC.publicOf s) m * s) % q) := by
  rw [RFC.signWith]
  refine ⟨List.take_left' (encodePoint_length _), ?_⟩
  rw [List.drop_left' (encodePoint_length _), List.take_of_length_le (by simp)]

/-- The equation holds for signatures made with the secret scalar. -/
theorem equation_of_sign (xof : Xof) (s : ℕ) (pre m : List Byte) :
    RFC.Equation (leNat (((RFC.signWith xof s pre m).drop 57).take 57)) (RFC.nonce xof pre m • B) (s • B)
      (RFC.challenge xof ((RFC.signWith xof s pre m).take 57) (encodePoint ((q + 1) • (s • B))) m) := by
  obtain ⟨h1, h2⟩ := sign_eq_parts xof s pre m
  rw [h1, h2, cleared_smul_B, leNat_leBytes]
  have hlt : ∀ n, n % q < 256 ^ 57 := fun n => by
    have := Nat.mod_lt n q_pos
    have := q_lt
    omega
  rw [Nat.mod_eq_of_lt (hlt _), RFC.Equation, smul_B_mod, add_smul, smul_add, mul_smul, RFC.publicOf]

/-- C05, partial. What verification says about a signature made with the same key: it is accepted exactly if the decoder accepts the public
key and the first half of the signature (for which strings this is the case is C33), and otherwise the error names the string that was
not accepted. Missing for C05: the unconditional acceptance, which is false (`C05_refuted`). -/
theorem C05_roundtrip_partial (xof : Xof) (k : Arr Byte 57) (m : List Byte) :
    ∃ A sig, ed448_derive_public xof k = .ok A ∧ ed448_sign xof k m = .ok sig ∧
      (Accepted A.1 → Accepted (sig.1.take 57) → ed448_verify xof A.1 sig.1 m = .ok (.ok true)) ∧
      (¬ Accepted A.1 → ed448_verify xof A.1 sig.1 m = .ok (.error .DecodePubkeyError)) ∧
      (Accepted A.1 → ¬ Accepted (sig.1.take 57) → ed448_verify xof A.1 sig.1 m = .ok (.error .DecodeSignatureError)) := by
  obtain ⟨A, a1, a2⟩ := derive_spec xof k
  obtain ⟨sig, s1, s2⟩ := sign_spec xof k m
  have hR : sig.1.take 57 = encodePoint (RFC.nonce xof (keySeed xof k.1) m • B) := by
    rw [s2]; exact (sign_eq_parts xof _ _ m).1
  have hz : ¬ ZeroInput A.1 sig.1 := by
    rintro (h | h)
    · rw [a2] at h
      exact encode_smul_B_ne_zero _ h
    · rw [h] at hR
      exact encode_smul_B_ne_zero _ (hR.symm.trans (by simp))
  refine ⟨A, sig, a1, s1, fun hA hr => ?_, fun hA => ?_, fun hA hr => ?_⟩
  · refine C07_complete xof A.1 sig.1 m (keyScalar xof k.1 • B) (RFC.nonce xof (keySeed xof k.1) m • B) hz hA ?_ sig.2.ge hr ?_ ?_
    · rw [a2]; exact decodes_encode _
    · rw [hR]; exact decodes_encode _
    · rw [s2]; exact equation_of_sign xof _ _ m
  · exact (C08_errors ..).mpr (Or.inr (Or.inr (Or.inl ⟨hz, A.2, hA, rfl⟩)))
  · exact (C08_errors ..).mpr (Or.inr (Or.inr (Or.inr ⟨hz, hA, sig.2.ge, hr, rfl⟩)))

/-- A key and a hash for which both strings are accepted, for every message. -/
example (m : List Byte) : ∃ A sig, ed448_derive_public Witness.oneXof Witness.key0 = .ok A ∧ ed448_sign Witness.oneXof Witness.key0 m = .ok sig ∧
    ed448_verify Witness.oneXof A.1 sig.1 m = .ok (.ok true) := by
  obtain ⟨A, sig, h1, h2, h3, _⟩ := C05_roundtrip_partial Witness.oneXof Witness.key0 m
  refine ⟨A, sig, h1, h2, h3 ?_ ?_⟩
  · obtain ⟨A', a1, a2⟩ := C03_derive_direct Witness.oneXof Witness.key0 Witness.key0_sign
    rw [h1] at a1
    injection a1 with a1
    rw [a1, a2]
    exact Witness.key0_accepted
  · obtain ⟨S', a1, a2⟩ := C04_sign_direct Witness.oneXof Witness.key0 m Witness.key0_sign
    rw [h2] at a1
    injection a1 with a1
    rw [a1, a2, (sign_eq_parts _ _ _ _).1]
    have e : ∀ s, leNat (RFC.hash Witness.oneXof s 114) = 1 := fun s => by
      rw [show RFC.hash Witness.oneXof s 114 = RFC.hash Witness.oneXof [] 114 from rfl]
      decide +kernel
    rw [RFC.nonce, e, one_smul]
    exact Witness.B_accepted

/-- C05 is false: there is a (direct-secret) key under whose public key no signature it makes verifies, whatever the hash function and the
message. -/
theorem C05_refuted : ∃ k : Arr Byte 57, ∀ (xof : Xof) (m : List Byte), ∃ A sig, ed448_derive_public xof k = .ok A ∧
    ed448_sign xof k m = .ok sig ∧ ed448_verify xof A.1 sig.1 m = .ok (.error .DecodePubkeyError) := by
  refine ⟨Witness.badKey, fun xof m => ?_⟩
  obtain ⟨A, sig, h1, h2, _, h4, _⟩ := C05_roundtrip_partial xof Witness.badKey m
  refine ⟨A, sig, h1, h2, h4 ?_⟩
  obtain ⟨A', a1, a2⟩ := C03_derive_direct xof Witness.badKey Witness.badKey_sign
  rw [h1] at a1
  injection a1 with a1
  rw [a1, a2, Witness.badKey_scalar]
  exact Witness.bad_rejected

/-- The hash function that prepends the bytes of the secret scalar of `badKey`. -/
def Witness.badXof : Xof := fun _ i => (leBytes 57 Witness.badS).getD i 0

/-- The same happens to every ordinary private key whose hash gives this secret scalar. -/
theorem C05_refuted_hashed (xof : Xof) (k : Arr Byte 57) (m : List Byte) (h : signBit k.1 = 0)
    (hx : RFC.secretScalar ((RFC.hash xof k.1 114).take 57) = Witness.badS) :
    ∃ A sig, ed448_derive_public xof k = .ok A ∧ ed448_sign xof k m = .ok sig ∧
      ed448_verify xof A.1 sig.1 m = .ok (.error .DecodePubkeyError) := by
  obtain ⟨A, sig, h1, h2, _, h4, _⟩ := C05_roundtrip_partial xof k m
  refine ⟨A, sig, h1, h2, h4 ?_⟩
  obtain ⟨A', a1, a2⟩ := C01_derive_rfc xof k h
  rw [h1] at a1
  injection a1 with a1
  rw [a1, a2, RFC.publicKey, hx]
  exact Witness.bad_rejected

example : signBit Witness.rfcKey.1 = 0 ∧ RFC.secretScalar ((RFC.hash Witness.badXof Witness.rfcKey.1 114).take 57) = Witness.badS := by
  rw [hash_take]
  decide +kernel

/-- C15. If the encoding of a multiple of the base point is accepted by the decoder, encoding the decoded point gives it back. -/
theorem C15_decode_encode (n : ℕ) (h : Accepted (encodePoint (n • B))) :
    ∃ P, eddsa_like_decode (encodePoint (n • B)) = .ok (.ok P) ∧ P.eddsa_like_encode.1 = encodePoint (n • B) := by
  rcases decode_cases (encodePoint_length (n • B)) with ⟨_, P, h1, h2, h3⟩ | ⟨h1, _⟩
  · refine ⟨P, h1, ?_⟩
    rw [encode_rep (h3 _ (decodes_encode _)).rep, quarter_four, cleared_smul_B]
  · exact absurd h h1

example : Accepted (encodePoint (2 ^ 447 • B)) := by
  have := Witness.key0_accepted
  rwa [Witness.key0_scalar, RFC.publicOf] at this

/-- C46. For a fixed key, R and challenge at most one S modulo q satisfies the equation. -/
theorem C46_unique_S (S S' : ℕ) (R A : E) (c : ℕ) (h : RFC.Equation S R A c) (h' : RFC.Equation S' R A c) : S % q = S' % q := by
  have h1 : 4 • (S • B) = 4 • (S' • B) := by rw [h, h']
  have h2 := congrArg (((q + 1) / 4) • ·) h1
  have h4 := q_mod_four
  simp only [smul_smul] at h2
  rw [show (q + 1) / 4 * (4 * S) = S * (q + 1) by rw [← mul_assoc, Nat.div_mul_cancel (by omega), mul_comm],
    show (q + 1) / 4 * (4 * S') = S' * (q + 1) by rw [← mul_assoc, Nat.div_mul_cancel (by omega), mul_comm],
    smul_B_inj, mul_add, mul_add, mul_one, mul_one, Nat.mul_add_mod_self_right, Nat.mul_add_mod_self_right] at h2
  exact h2

/-- The equation is met, with the nonce point `B`, the key `B` and the challenge 1, by S = 2 and by S = 2 + q. -/
example : RFC.Equation 2 B B 1 ∧ RFC.Equation (2 + q) B B 1 := by
  have h : (2 + q) • B = 2 • B := by rw [add_smul, q_smul_B, add_zero]
  constructor
  · rw [RFC.Equation, one_smul, two_smul, smul_add]
  · rw [RFC.Equation, h, one_smul, two_smul, smul_add]

end Ed448
