import Verif.Spec.Variants
import Verif.Properties.Count

/-!
# Forgeries, other variants of the scheme, and the two kinds of keys: C70 to C74
-/

set_option exponentiation.threshold 1000

namespace Ed448

/-! ## C70 -/

/-- For a set of outputs on which the equation holds: two of them give the discrete logarithm, or they are few. -/
theorem forger_few (R A : E) (S : (Fin 114 → Byte) → ℕ) (T : Set (Fin 114 → Byte)) (hT : ∀ h ∈ T, RFC.Equation (S h) R A (leNat (List.ofFn h))) :
    (∃ h ∈ T, ∃ h' ∈ T, (q + 1) • A = quotient (S h) (S h') (leNat (List.ofFn h)) (leNat (List.ofFn h')) • B) ∨ T.ncard ≤ 2 ^ 912 / q + 1 := by
  by_cases hd : ∃ h ∈ T, ∃ h' ∈ T, leNat (List.ofFn h) % q ≠ leNat (List.ofFn h') % q
  · obtain ⟨h, e, h', e', hne⟩ := hd
    exact Or.inl ⟨h, e, h', e', C59_extract _ _ _ _ R A (hT h e) (hT h' e') hne⟩
  · right
    push Not at hd
    rcases Set.eq_empty_or_nonempty T with he | ⟨h0, e0⟩
    · rw [he, Set.ncard_empty]; exact Nat.zero_le _
    · have hsub : T ⊆ {h : Fin 114 → Byte | leNat (List.ofFn h) % q = leNat (List.ofFn h0) % q} := fun h e => hd h e h0 e0
      have : Finite Byte := Finite.of_injective _ BitVec.toFin_injective
      refine le_trans (Set.ncard_le_ncard hsub (Set.toFinite _)) ?_
      have hN := ncard_strings 114 (fun v => v % q = leNat (List.ofFn h0) % q)
      rw [show 256 ^ 114 = 2 ^ 912 by norm_num] at hN
      rw [hN]
      rcases ncard_residue (2 ^ 912) q (leNat (List.ofFn h0) % q) q_pos (Nat.mod_lt _ q_pos) with h | h <;> omega

theorem challenge_reprogram (xof : Xof) (r key m : List Byte) (h : Fin 114 → Byte) :
    RFC.challenge (reprogram xof (RFC.dom4 ++ r ++ key ++ m) h) r key m = leNat (List.ofFn h) := by
  rw [RFC.challenge, hash_reprogram]

/-- C70. A forger who has fixed the first half `r` of a signature (for the point `R`) and the message, and who answers with some S for
every output `h` of the hash function on the string hashed for the challenge: either there are two outputs for which the answers satisfy
the verification equation (with the challenge of this library, made from the key without its small-order component) and give the
discrete logarithm of that key as a quotient of differences, or the answers satisfy it for at most `2^912 / q + 1` of the `2^912` outputs. -/
theorem C70_forger (xof : Xof) (r m : List Byte) (A R : E) (S : (Fin 114 → Byte) → ℕ) :
    let key := encodePoint ((q + 1) • A)
    let c := fun h => RFC.challenge (reprogram xof (RFC.dom4 ++ r ++ key ++ m) h) r key m
    (∃ h h', RFC.Equation (S h) R A (c h) ∧ RFC.Equation (S h') R A (c h') ∧ (q + 1) • A = quotient (S h) (S h') (c h) (c h') • B) ∨
      Set.ncard {h | RFC.Equation (S h) R A (c h)} ≤ 2 ^ 912 / q + 1 := by
  intro key c
  have hc : ∀ h, c h = leNat (List.ofFn h) := challenge_reprogram xof r key m
  rcases forger_few R A S {h | RFC.Equation (S h) R A (c h)} (fun h e => by rw [← hc]; exact e) with ⟨h, e, h', e', hx⟩ | hx
  · exact Or.inl ⟨h, h', e, e', by rw [hc, hc]; exact hx⟩
  · exact Or.inr hx

/-- C70, for valid signatures in the sense of RFC 8032 under any public key: the answers are the second halves of signatures, as bytes. -/
theorem C70_forger_valid (xof : Xof) (pk r m : List Byte) (hr : r.length = 57) (S : (Fin 114 → Byte) → List Byte) :
    let valid := fun h => RFC.Valid (reprogram xof (RFC.dom4 ++ r ++ pk ++ m) h) pk m (r ++ S h)
    (∃ A, RFC.DecodesTo pk A ∧ ∃ h h', valid h ∧ valid h' ∧
      (q + 1) • A = quotient (leNat (S h)) (leNat (S h')) (leNat (List.ofFn h)) (leNat (List.ofFn h')) • B) ∨
      Set.ncard {h | valid h} ≤ 2 ^ 912 / q + 1 := by
  intro valid
  rcases Set.eq_empty_or_nonempty {h | valid h} with he | ⟨h0, _, A, R, hA, hR, _⟩
  · exact Or.inr (by rw [he, Set.ncard_empty]; exact Nat.zero_le _)
  rw [List.take_left' hr] at hR
  have hT : ∀ h ∈ {h | valid h}, RFC.Equation (leNat (S h)) R A (leNat (List.ofFn h)) := by
    rintro h ⟨_, A', R', hA', hR', _, e⟩
    rw [List.take_left' hr] at hR' e
    rw [List.drop_left' hr, challenge_reprogram] at e
    rw [decodesTo_iff] at hA hR hA' hR'
    obtain rfl := encodePoint_inj.mp (hA.symm.trans hA')
    obtain rfl := encodePoint_inj.mp (hR.symm.trans hR')
    exact e
  rcases forger_few R A (fun h => leNat (S h)) _ hT with ⟨h, e, h', e', hx⟩ | hx
  · exact Or.inl ⟨A, hA, h, h', e, e', hx⟩
  · exact Or.inr hx

/-- Both cases occur: who knows that the key is `3 B` answers `1 + 3c` and succeeds for all outputs; who always answers 1 succeeds only if
the challenge is a multiple of the order. -/
example :
    (∀ h : Fin 114 → Byte, RFC.Equation (1 + 3 * leNat (List.ofFn h)) B (3 • B) (leNat (List.ofFn h))) ∧
    (∀ h : Fin 114 → Byte, RFC.Equation 1 B (3 • B) (leNat (List.ofFn h)) → (3 * leNat (List.ofFn h)) % q = 0) := by
  constructor
  · intro h
    rw [RFC.Equation, add_smul, one_smul, smul_add, mul_comm 3, mul_smul]
  · intro h e
    rw [RFC.Equation, one_smul, left_eq_add, ← mul_smul (leNat _), mul_comm _ 3] at e
    by_contra hne
    refine four_smul_B_ne (n := 3 * leNat (List.ofFn h)) (fun h0 => hne ?_) e
    have := smul_B_inj.mp (h0.trans (zero_smul ℕ B).symm)
    rwa [Nat.zero_mod] at this

/-! ## C65, other keys -/

/-- C65. A signature made with one key for the message `m` is a valid signature (RFC 8032, with all checks) of `m'` under the public key of another
exactly if the products of challenge and secret scalar are congruent modulo the group order. -/
theorem C65_other_key (xof : Xof) (k k' A A' : Arr Byte 57) (m m' : List Byte) (sig : Arr Byte 114) (hA : ed448_derive_public xof k = .ok A)
    (hA' : ed448_derive_public xof k' = .ok A') (hs : ed448_sign xof k m = .ok sig) :
    RFC.Valid xof A'.1 m' sig.1 ↔
      RFC.challenge xof (sig.1.take 57) A.1 m * keyScalar xof k.1 % q = RFC.challenge xof (sig.1.take 57) A'.1 m' * keyScalar xof k'.1 % q := by
  obtain ⟨_, h2, h3, h4⟩ := sign_parts hA hs
  obtain ⟨A1, a1, a2⟩ := derive_spec xof k'
  obtain rfl := Except.ok.inj (hA'.symm.trans a1)
  generalize RFC.challenge xof (sig.1.take 57) A.1 m = c at *
  have hiff : RFC.Equation (leNat (sig.1.drop 57)) (RFC.nonce xof (keySeed xof k.1) m • B) (keyScalar xof k'.1 • B)
      (RFC.challenge xof (sig.1.take 57) A'.1 m') ↔ c * keyScalar xof k.1 % q = RFC.challenge xof (sig.1.take 57) A'.1 m' * keyScalar xof k'.1 % q := by
    generalize RFC.challenge xof (sig.1.take 57) A'.1 m' = c'
    rw [RFC.Equation, h4, smul_add, add_right_inj, smul_smul c, smul_smul c', smul_smul, smul_smul, smul_B_inj]
    have hco : Nat.Coprime q 4 := by
      have := q_mod_four
      rw [Nat.coprime_comm, show 4 = 2 ^ 2 from rfl]
      exact Nat.Coprime.pow_left 2 ((Nat.coprime_primes Nat.prime_two (Fact.out : q.Prime)).mpr (by omega))
    exact ⟨fun h => Nat.ModEq.cancel_left_of_coprime hco h, fun h => Nat.ModEq.mul_left 4 h⟩
  rw [← hiff]
  constructor
  · rintro ⟨_, P, R, hP, hR, _, he⟩
    rw [decodesTo_iff] at hP hR
    obtain rfl := encodePoint_inj.mp (a2.symm.trans hP)
    obtain rfl := encodePoint_inj.mp (h2.symm.trans hR)
    exact he
  · exact fun he => ⟨sig.2, _, _, decodesTo_iff.mpr a2, decodesTo_iff.mpr h2, h3, he⟩

/-- Two different keys and a message, with their public keys and a signature. -/
example (xof : Xof) (m : List Byte) : ∃ A A' sig, Witness.rfcKey ≠ Witness.key0 ∧ ed448_derive_public xof Witness.rfcKey = .ok A ∧
    ed448_derive_public xof Witness.key0 = .ok A' ∧ ed448_sign xof Witness.rfcKey m = .ok sig := by
  obtain ⟨A, a1, _⟩ := derive_spec xof Witness.rfcKey
  obtain ⟨A', a2, _⟩ := derive_spec xof Witness.key0
  obtain ⟨s, s1, _⟩ := sign_spec xof Witness.rfcKey m
  exact ⟨A, A', s, fun h => by have h1 := Witness.rfcKey_sign; rw [h, Witness.key0_sign] at h1; omega, a1, a2, s1⟩

/-! ## C71 -/

/-- C71. Exactly half of the `2^456` strings that key generation can return are direct secrets, which are not hashed. -/
theorem C71_half (xof : Xof) :
    Set.ncard {k : Arr Byte 57 | signBit k.1 = 1} = 2 ^ 455 ∧ Set.ncard {k : Arr Byte 57 | signBit k.1 = 0} = 2 ^ 455 := by
  have h1 := (C67_direct xof 0 (by norm_num)).2
  refine ⟨h1, ?_⟩
  have hall : Set.ncard (Set.univ : Set (Arr Byte 57)) = 2 ^ 456 := by
    have h2 := ncard_arrays 57 (fun _ => True)
    have e : {v : ℕ | v < 256 ^ 57 ∧ True} = (Finset.range (256 ^ 57) : Finset ℕ) := by
      ext v
      simp
    rw [e, Set.ncard_coe_finset, Finset.card_range] at h2
    rw [show (Set.univ : Set (Arr Byte 57)) = {k | True} from rfl, h2]
    norm_num
  have hfin : (Set.univ : Set (Arr Byte 57)).Finite := Set.finite_of_ncard_ne_zero (by rw [hall]; positivity)
  have e : {k : Arr Byte 57 | signBit k.1 = 0} = Set.univ \ {k : Arr Byte 57 | signBit k.1 = 1} := by
    ext k
    have := signBit_lt k.1
    simp only [Set.mem_ofPred_eq, Set.mem_sdiff, Set.mem_univ, true_and]
    omega
  rw [e, Set.ncard_sdiff (Set.subset_univ _) (hfin.subset (Set.subset_univ _)), hall, h1]
  norm_num

/-- C71. The public key is the one that RFC 8032 gives for the same 57 bytes exactly if the key is an ordinary one or its own clamped value is
that of its hash. -/
theorem C71_rfc_agrees (xof : Xof) (k A : Arr Byte 57) (hA : ed448_derive_public xof k = .ok A) :
    A.1 = RFC.publicKey xof k.1 ↔ signBit k.1 = 0 ∨ RFC.secretScalar k.1 = RFC.secretScalar ((RFC.hash xof k.1 114).take 57) := by
  have hs := signBit_lt k.1
  by_cases h0 : signBit k.1 = 0
  · obtain ⟨A', a1, a2⟩ := C01_derive_rfc xof k h0
    obtain rfl := Except.ok.inj (hA.symm.trans a1)
    simp [h0, a2]
  · obtain ⟨A', a1, a2⟩ := C03_derive_direct xof k (by omega)
    obtain rfl := Except.ok.inj (hA.symm.trans a1)
    rw [a2, RFC.publicKey, ← RFC.publicOf, publicOf_inj]
    simp [h0]

/-- C71. For a direct secret this is the case for exactly `2^467` of the `2^912` outputs that the hash function can have on it, one in `2^445`. -/
theorem C71_rarely (xof : Xof) (k : Arr Byte 57) (hk : signBit k.1 = 1) :
    Set.ncard {h : Fin 114 → Byte | ∃ A, ed448_derive_public (reprogram xof k.1 h) k = .ok A ∧ A.1 = RFC.publicKey (reprogram xof k.1 h) k.1} = 2 ^ 467 := by
  have hj : leNat k.1 % 2 ^ 447 / 4 < 2 ^ 445 := by
    have := Nat.mod_lt (leNat k.1) (show 0 < 2 ^ 447 by norm_num)
    have h447 : (2 : ℕ) ^ 447 = 4 * 2 ^ 445 := by rw [show 447 = 2 + 445 from rfl, pow_add]; norm_num
    omega
  have e : {h : Fin 114 → Byte | ∃ A, ed448_derive_public (reprogram xof k.1 h) k = .ok A ∧ A.1 = RFC.publicKey (reprogram xof k.1 h) k.1} =
      {h : Fin 114 → Byte | leNat (List.ofFn h) % 2 ^ 447 / 4 = leNat k.1 % 2 ^ 447 / 4} := by
    ext h
    simp only [Set.mem_ofPred_eq]
    have hm : leNat (List.ofFn h) % 2 ^ 447 = leNat ((List.ofFn h).take 57) % 2 ^ 447 := by
      conv_lhs => rw [← List.take_append_drop 57 (List.ofFn h), leNat_append]
      rw [List.length_take, List.length_ofFn, show 256 ^ min 57 114 = 2 ^ 447 * 2 ^ 9 by norm_num, mul_assoc, Nat.add_mul_mod_self_left]
    rw [hm, ← scalar_eq_iff]
    have hself : RFC.secretScalar k.1 = 4 * (leNat k.1 % 2 ^ 447 / 4) + 2 ^ 447 := scalar_eq_iff.mpr rfl
    obtain ⟨A, a1, _⟩ := C03_derive_direct (reprogram xof k.1 h) k hk
    have h3 := C71_rfc_agrees (reprogram xof k.1 h) k A a1
    rw [hash_reprogram, hself] at h3
    constructor
    · rintro ⟨A', a3, a4⟩
      obtain rfl := Except.ok.inj (a1.symm.trans a3)
      rcases h3.mp a4 with h4 | h4
      · omega
      · exact h4.symm
    · exact fun h4 => ⟨A, a1, h3.mpr (Or.inr h4.symm)⟩
  have h1 := ncard_strings 114 (fun v => v % 2 ^ 447 / 4 = leNat k.1 % 2 ^ 447 / 4)
  have h2 := ncard_clamped 0 (2 ^ 465) _ hj
  rw [e, h1, show 256 ^ 114 = 2 ^ 447 * (0 + 2 ^ 465) by norm_num]
  simp only [mul_zero, Nat.zero_le, true_and] at h2
  rw [h2]
  norm_num

example : signBit Witness.key0.1 = 1 := Witness.key0_sign

/-! ## C72 -/

theorem domOf_zero : RFC.domOf 0 [] = RFC.dom4 := by decide +kernel

/-- The strings that begin with `dom4` of one flag and context are different from those that begin with `dom4` of another. -/
theorem domOf_inj {f f' : Byte} {c c' x y : List Byte} (hc : c.length < 256) (hc' : c'.length < 256) (h : RFC.domOf f c ++ x = RFC.domOf f' c' ++ y) :
    f = f' ∧ c = c' ∧ x = y := by
  unfold RFC.domOf at h
  generalize "SigEd448".toList.map (fun c => BitVec.ofNat 8 c.toNat) = d at h
  simp only [List.append_assoc] at h
  have h1 := List.append_cancel_left h
  simp only [List.cons_append, List.nil_append, List.cons.injEq] at h1
  obtain ⟨h2, h3, h4⟩ := h1
  have h5 := congrArg BitVec.toNat h3
  rw [BitVec.toNat_ofNat, BitVec.toNat_ofNat, Nat.mod_eq_of_lt (by simpa using hc), Nat.mod_eq_of_lt (by simpa using hc')] at h5
  obtain ⟨h6, h7⟩ := List.append_inj h4 h5
  exact ⟨h2, h6, h7⟩

/-- C72. No string hashed for a nonce or a challenge of this library is hashed for a nonce or a challenge of another variant of RFC 8032 (Ed448ph, or a
context that is not empty), and none is the string hashed to expand a private key. -/
theorem C72_domain (f : Byte) (c x y : List Byte) (hc : c.length < 256) (hx : 57 ≤ x.length) :
    (RFC.dom4 ++ x = RFC.domOf f c ++ y → f = 0 ∧ c = [] ∧ x = y) ∧ ∀ k : Arr Byte 57, k.1 ≠ RFC.dom4 ++ x := by
  constructor
  · intro h
    rw [← domOf_zero] at h
    obtain ⟨h1, h2, h3⟩ := domOf_inj (by simp) hc h
    exact ⟨h1.symm, h2.symm, h3⟩
  · intro k h
    have h1 := congrArg List.length h
    rw [List.length_append, dom4_length, k.2] at h1
    omega

/-- Ed448ph with the context "a", and an actual string hashed for a challenge. -/
example : ([0x61] : List Byte).length < 256 ∧ 57 ≤ (encodePoint B ++ encodePoint B ++ [1, 2, 3]).length ∧ RFC.domOf 1 [0x61] ≠ RFC.dom4 := by
  refine ⟨by simp, by simp [encodePoint_length], by decide +kernel⟩

/-- C72. The name notwithstanding, `sign_prehash` makes Ed448 signatures and not Ed448ph signatures: the first 114 bytes are a valid Ed448 signature of the
given string as the message. They are a valid signature for another variant (flag `f`, context `c`) and a message `M` exactly if the two challenges
are congruent modulo the group order. -/
theorem C72_prehash (xof : Xof) (k : SigningKey) (hk : Obtained xof k) (h : List Byte) (hn : k.get_verifying_key.as_bytes ≠ encodePoint 0) :
    ∃ Sg, k.sign_prehash xof h = .ok (.ok Sg) ∧ RFC.Valid xof k.get_verifying_key.as_bytes h (Sg.as_slice.take 114) ∧
      ∀ f c M, RFC.ValidOf xof f c k.get_verifying_key.as_bytes M (Sg.as_slice.take 114) ↔
        RFC.challenge xof (Sg.as_slice.take 57) k.get_verifying_key.as_bytes h % q =
          RFC.challengeOf xof f c (Sg.as_slice.take 57) k.get_verifying_key.as_bytes M % q := by
  obtain ⟨sig, Sg, s1, s2, _, s3⟩ := C26_prehash_layout xof k h
  have hA := C20_verifying_key xof k hk
  have ht : Sg.as_slice.take 114 = sig.1 := by rw [s3, List.take_left' sig.2]
  have ht2 : Sg.as_slice.take 57 = sig.1.take 57 := by rw [← ht, List.take_take, show min 57 114 = 57 from rfl]
  have hA1 : k.get_verifying_key.as_bytes = k.get_verifying_key.key.1 := rfl
  rw [hA1] at hn
  obtain ⟨h1, h2, h3, h4⟩ := sign_parts hA s1
  have hne : 4 • (keyScalar xof k.to_bytes.1 • B) ≠ 0 := four_smul_B_ne fun h0 => hn (by rw [h1, h0])
  have heq : RFC.Equation (leNat (sig.1.drop 57)) (RFC.nonce xof (keySeed xof k.to_bytes.1) h • B) (keyScalar xof k.to_bytes.1 • B)
      (RFC.challenge xof (sig.1.take 57) k.get_verifying_key.key.1 h) := by rw [RFC.Equation, h4, smul_add]
  refine ⟨Sg, s2, ?_, fun f c M => ?_⟩
  · rw [ht, hA1]
    exact ⟨sig.2, _, _, decodesTo_iff.mpr h1, decodesTo_iff.mpr h2, h3, heq⟩
  · rw [ht, ht2, hA1, ← C65_equation _ _ _ _ _ hne heq]
    constructor
    · rintro ⟨_, P, R, hP, hR, _, he⟩
      rw [decodesTo_iff] at hP hR
      obtain rfl := encodePoint_inj.mp (h1.symm.trans hP)
      obtain rfl := encodePoint_inj.mp (h2.symm.trans hR)
      exact he
    · exact fun he => ⟨sig.2, _, _, decodesTo_iff.mpr h1, decodesTo_iff.mpr h2, h3, he⟩

/-- The key of 56 zero bytes and 0x80. -/
example (xof : Xof) : ∃ k, SigningKey.from_slice xof Witness.key0.1 = .ok k ∧ Obtained xof k ∧ k.get_verifying_key.as_bytes ≠ encodePoint 0 := by
  obtain ⟨A, hA, h, _⟩ := from_slice_spec (xof := xof) Witness.key0.2
  refine ⟨_, h, .from_slice h, fun h0 => ?_⟩
  obtain ⟨A', a1, a2⟩ := C03_derive_direct xof Witness.key0 Witness.key0_sign
  obtain rfl := Except.ok.inj (hA.symm.trans a1)
  replace h0 : A.1 = encodePoint 0 := h0
  rw [a2, Witness.key0_scalar] at h0
  have := smul_B_inj.mp ((encodePoint_inj.mp h0).trans (zero_smul ℕ B).symm)
  revert this
  rw [← qN_eq]
  decide +kernel

/-! ## C73 -/

theorem signWith_drop (xof : Xof) (s : ℕ) (pre m : List Byte) :
    leNat ((RFC.signWith xof s pre m).drop 57) = (RFC.nonce xof pre m +
      RFC.challenge xof ((RFC.signWith xof s pre m).take 57) (RFC.publicOf s) m * s) % q := by
  have h := (sign_eq_parts xof s pre m)
  rw [h.1]
  have hlen : (RFC.signWith xof s pre m).length = 114 := by rw [RFC.signWith]; simp [encodePoint_length]
  have h2 := h.2
  rw [List.take_of_length_le (by rw [List.length_drop, hlen])] at h2
  rw [h2, leNat_leBytes, Nat.mod_eq_of_lt]
  have := Nat.mod_lt (RFC.nonce xof pre m + RFC.challenge xof (encodePoint (RFC.nonce xof pre m • B)) (RFC.publicOf s) m * s) q_pos
  have := q_lt
  omega

/-- C73. Signing the same message with two secrets and the same nonce seed: both signatures have the same first half, and who knows one of the
secrets gets the other from the two signatures, unless its challenge is a multiple of the group order. -/
theorem C73_seed_reuse (xof : Xof) (s s' n A A' : Arr Byte 57) (m : List Byte) (sig sig' : Arr Byte 114)
    (hA : secret_to_public s = .ok A) (hA' : secret_to_public s' = .ok A')
    (h : sign_with_secret_and_nonce xof s n m = .ok sig) (h' : sign_with_secret_and_nonce xof s' n m = .ok sig') :
    sig.1.take 57 = sig'.1.take 57 ∧
    ∀ c c', c = RFC.challenge xof (sig.1.take 57) A.1 m → c' = RFC.challenge xof (sig.1.take 57) A'.1 m →
      (c' * RFC.secretScalar s'.1 + leNat (sig.1.drop 57)) % q = (c * RFC.secretScalar s.1 + leNat (sig'.1.drop 57)) % q ∧
      (c' % q ≠ 0 → ∀ t, (c' * t + leNat (sig.1.drop 57)) % q = (c * RFC.secretScalar s.1 + leNat (sig'.1.drop 57)) % q → t % q = RFC.secretScalar s'.1 % q) := by
  obtain ⟨⟨A1, a1, a2⟩, ⟨g1, b1, b2⟩⟩ := C50_with_secret xof s n m
  obtain ⟨⟨A2, a3, a4⟩, ⟨g2, b3, b4⟩⟩ := C50_with_secret xof s' n m
  obtain rfl := Except.ok.inj (hA.symm.trans a1)
  obtain rfl := Except.ok.inj (hA'.symm.trans a3)
  obtain rfl := Except.ok.inj (h.symm.trans b1)
  obtain rfl := Except.ok.inj (h'.symm.trans b3)
  have hR : sig.1.take 57 = sig'.1.take 57 := by rw [b2, b4, (sign_eq_parts _ _ _ _).1, (sign_eq_parts _ _ _ _).1]
  refine ⟨hR, ?_⟩
  intro c c' hc0 hc1
  have d1 := signWith_drop xof (RFC.secretScalar s.1) n.1 m
  have d2 := signWith_drop xof (RFC.secretScalar s'.1) n.1 m
  rw [← b2, RFC.publicOf, ← a2] at d1
  rw [← b4, RFC.publicOf, ← a4, ← hR] at d2
  rw [← hc0] at d1
  rw [← hc1] at d2
  have key : (c' * RFC.secretScalar s'.1 + leNat (sig.1.drop 57)) % q = (c * RFC.secretScalar s.1 + leNat (sig'.1.drop 57)) % q := by
    rw [d1, d2, Nat.add_mod_mod, Nat.add_mod_mod, add_left_comm, add_left_comm (c * _), add_comm (c' * _)]
  refine ⟨key, fun hcne t ht => ?_⟩
  rw [← key] at ht
  have h1 := (ZMod.natCast_eq_natCast_iff' _ _ _).mpr ht
  push_cast at h1
  have hne : (c' : ZMod q) ≠ 0 := by
    intro h0
    rw [ZMod.natCast_eq_zero_iff] at h0
    exact hcne (Nat.mod_eq_zero_of_dvd h0)
  exact (ZMod.natCast_eq_natCast_iff' _ _ _).mp (mul_left_cancel₀ hne (add_right_cancel h1))

/-- Two different secrets and one seed; with a hash function that returns 1, 0, 0, ... the challenges are 1, not multiples of the order. -/
example (m : List Byte) : ∃ A A' sig sig', RFC.secretScalar Witness.key0.1 ≠ RFC.secretScalar Witness.badKey.1 ∧
    secret_to_public Witness.key0 = .ok A ∧ secret_to_public Witness.badKey = .ok A' ∧
    sign_with_secret_and_nonce Witness.oneXof Witness.key0 Witness.rfcKey m = .ok sig ∧
    sign_with_secret_and_nonce Witness.oneXof Witness.badKey Witness.rfcKey m = .ok sig' ∧
    RFC.challenge Witness.oneXof (sig.1.take 57) A'.1 m % q ≠ 0 := by
  obtain ⟨⟨A1, a1, a2⟩, ⟨g1, b1, b2⟩⟩ := C50_with_secret Witness.oneXof Witness.key0 Witness.rfcKey m
  obtain ⟨⟨A2, a3, a4⟩, ⟨g2, b3, b4⟩⟩ := C50_with_secret Witness.oneXof Witness.badKey Witness.rfcKey m
  refine ⟨A1, A2, g1, g2, ?_, a1, a3, b1, b3, ?_⟩
  · rw [Witness.key0_scalar, Witness.badKey_scalar]
    decide +kernel
  · rw [RFC.challenge, show ∀ s, RFC.hash Witness.oneXof s 114 = RFC.hash Witness.oneXof [] 114 from fun _ => rfl, ← qN_eq]
    decide +kernel

/-! ## C74 -/

/-- C74. An ordinary private key and its expanded secret have the same public key, and are both valid forms of the same key: their signatures of a
message are equal exactly if their first halves are, which is the case exactly if the two nonces are congruent modulo the group order. Otherwise
the message has two different signatures. -/
theorem C74_two_forms (xof : Xof) (k A : Arr Byte 57) (m : List Byte) (sig sig' : Arr Byte 114) (hk : signBit k.1 = 0)
    (hA : ed448_derive_public xof k = .ok A) (h : ed448_sign xof k m = .ok sig) (h' : ed448_sign xof (private_to_secret xof k) m = .ok sig') :
    ed448_derive_public xof (private_to_secret xof k) = .ok A ∧ RFC.Valid xof A.1 m sig.1 ∧ RFC.Valid xof A.1 m sig'.1 ∧
    (sig = sig' ↔ sig.1.take 57 = sig'.1.take 57) ∧
    (sig = sig' ↔ RFC.nonce xof ((RFC.hash xof k.1 114).drop 57) m % q =
      RFC.nonce xof (leBytes 57 (RFC.secretScalar ((RFC.hash xof k.1 114).take 57))) m % q) := by
  obtain ⟨p1, p2⟩ := C18_private_to_secret xof k
  have hA' := (p2 hk).trans hA
  have v1 : RFC.Valid xof A.1 m sig.1 := by
    obtain ⟨A1, g1, a1, b1, c1, _⟩ := C57_valid_elsewhere xof k m
    obtain rfl := Except.ok.inj (hA.symm.trans a1)
    obtain rfl := Except.ok.inj (h.symm.trans b1)
    exact c1
  have v2 : RFC.Valid xof A.1 m sig'.1 := by
    obtain ⟨A1, g1, a1, b1, c1, _⟩ := C57_valid_elsewhere xof (private_to_secret xof k) m
    obtain rfl := Except.ok.inj (hA'.symm.trans a1)
    obtain rfl := Except.ok.inj (h'.symm.trans b1)
    exact c1
  obtain ⟨g1, b1, b2⟩ := C02_sign_rfc xof k m hk
  obtain rfl := Except.ok.inj (h.symm.trans b1)
  obtain ⟨g2, b3, b4⟩ := C04_sign_direct xof (private_to_secret xof k) m p1
  obtain rfl := Except.ok.inj (h'.symm.trans b3)
  rw [private_to_secret_scalar] at b4
  rw [RFC.sign] at b2
  generalize RFC.secretScalar ((RFC.hash xof k.1 114).take 57) = s at *
  generalize (RFC.hash xof k.1 114).drop 57 = n at *
  have hn : sig.1.take 57 = sig'.1.take 57 ↔ RFC.nonce xof n m % q = RFC.nonce xof (leBytes 57 s) m % q := by
    rw [b2, b4, (sign_eq_parts _ _ _ _).1, (sign_eq_parts _ _ _ _).1, encodePoint_inj, smul_B_inj]
  have hs : sig = sig' ↔ sig.1.take 57 = sig'.1.take 57 := by
    refine ⟨fun e => by rw [e], fun e => ?_⟩
    have e2 := signWith_drop xof s n m
    have e3 := signWith_drop xof s (leBytes 57 s) m
    rw [← b2, Nat.add_mod, hn.mp e, ← Nat.add_mod, e] at e2
    rw [← b4, ← e2] at e3
    have e4 := leNat_inj (by rw [List.length_drop, List.length_drop, sig.2, sig'.2]) e3
    refine Subtype.ext ?_
    rw [← List.take_append_drop 57 sig.1, e, ← e4, List.take_append_drop]
  exact ⟨hA', v1, v2, hs, hs.trans hn⟩

/-- An ordinary key, its public key and both signatures. -/
example (xof : Xof) (m : List Byte) : ∃ A sig sig', signBit Witness.rfcKey.1 = 0 ∧ ed448_derive_public xof Witness.rfcKey = .ok A ∧
    ed448_sign xof Witness.rfcKey m = .ok sig ∧ ed448_sign xof (private_to_secret xof Witness.rfcKey) m = .ok sig' := by
  obtain ⟨A, a1, _⟩ := derive_spec xof Witness.rfcKey
  obtain ⟨s, s1, _⟩ := sign_spec xof Witness.rfcKey m
  obtain ⟨s', s2, _⟩ := sign_spec xof (private_to_secret xof Witness.rfcKey) m
  exact ⟨A, s, s', Witness.rfcKey_sign, a1, s1, s2⟩

end Ed448
