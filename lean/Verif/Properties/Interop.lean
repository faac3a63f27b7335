import Verif.Properties.SameKey
import Verif.Properties.Hash
import Verif.Properties.Api
import Verif.Spec.Verify

/-!
# Agreement with a verifier that follows RFC 8032, and what signatures reveal: C57 to C61
-/

set_option exponentiation.threshold 1000

namespace Ed448

/-- The strict decoding of RFC 8032 inverts the encoding. -/
theorem decodesTo_iff {b : List Byte} {A : E} : RFC.DecodesTo b A ↔ b = encodePoint A := by
  constructor
  · rintro ⟨h1, h2, h3, h4, h5⟩
    have hl : leNat b = A.y.val + 2 ^ 455 * (A.x.val % 2) := by
      have e1 : A.y.val = yNat b := by rw [h4, ZMod.val_natCast, Nat.mod_eq_of_lt h3]
      have hb : b = b.take 56 ++ [b.getD 56 0] := by
        conv_lhs => rw [← List.take_append_drop 56 b]
        congr 1
        apply List.ext_getElem
        · simp [h1]
        · intro i hi _
          have : i = 0 := by simp [h1] at hi; omega
          subst this
          simp [List.getD, h1]
      rw [e1, h5, yNat, signBit]
      conv_lhs => rw [hb]
      rw [leNat_append, leNat, leNat]
      have h6 : (b.take 56).length = 56 := by simp [h1]
      rw [padBits] at h2
      rw [h6]
      generalize (b.getD 56 0).toNat = c at *
      omega
    have := leBytes_leNat b
    rw [h1, hl] at this
    rw [encodePoint]
    exact this.symm
  · rintro rfl
    refine ⟨encodePoint_length A, padBits_encode A, ?_, ?_, (signBit_encode A).symm⟩
    · rw [yNat_encode]; exact ZMod.val_lt _
    · rw [yNat_encode, ZMod.natCast_zmod_val]

/-- C57. Every signature made by the library is valid under the derived public key for every verifier that follows RFC 8032, without
exceptions (the exceptions of C05 are caused by the library's own decoder). It even satisfies the equation without the factor 4. -/
theorem C57_valid_elsewhere (xof : Xof) (k : Arr Byte 57) (m : List Byte) :
    ∃ A sig, ed448_derive_public xof k = .ok A ∧ ed448_sign xof k m = .ok sig ∧ RFC.Valid xof A.1 m sig.1 ∧
      ∃ P R : E, RFC.DecodesTo A.1 P ∧ RFC.DecodesTo (sig.1.take 57) R ∧
        leNat (sig.1.drop 57) • B = R + RFC.challenge xof (sig.1.take 57) A.1 m • P := by
  obtain ⟨A, a1, a2⟩ := derive_spec xof k
  obtain ⟨sig, s1, s2⟩ := sign_spec xof k m
  have hl := sig.2
  obtain ⟨h1, h2⟩ := sign_eq_parts xof (keyScalar xof k.1) (keySeed xof k.1) m
  rw [← s2] at h1 h2
  rw [List.take_of_length_le (by simp [hl])] at h2
  have hlt : ∀ n, n % q < 256 ^ 57 := fun n => by
    have := Nat.mod_lt n q_pos
    have := q_lt
    omega
  have h3 : leNat (sig.1.drop 57) = (RFC.nonce xof (keySeed xof k.1) m +
      RFC.challenge xof (encodePoint (RFC.nonce xof (keySeed xof k.1) m • B)) (RFC.publicOf (keyScalar xof k.1)) m * keyScalar xof k.1) % q := by
    rw [h2, leNat_leBytes, Nat.mod_eq_of_lt (hlt _)]
  have h4 : leNat (sig.1.drop 57) • B = RFC.nonce xof (keySeed xof k.1) m • B + RFC.challenge xof (sig.1.take 57) A.1 m • (keyScalar xof k.1 • B) := by
    rw [h3, smul_B_mod, add_smul, mul_smul, h1, a2, RFC.publicOf]
  refine ⟨A, sig, a1, s1, ⟨hl, _, _, decodesTo_iff.mpr a2, decodesTo_iff.mpr h1, ?_, ?_⟩, _, _, decodesTo_iff.mpr a2, decodesTo_iff.mpr h1, h4⟩
  · rw [h3]; exact Nat.mod_lt _ q_pos
  · rw [RFC.Equation, h4, smul_add]

/-- C58. A signature that is valid by RFC 8032 under a key in the subgroup generated by the base point is accepted by the library, unless its decoder rejects the
key or the first half of the signature (the exceptions are rare, C55), or the signature is the all-zero string. -/
theorem C58_valid_accepted (xof : Xof) (pk sig m : List Byte) (n : ℕ) (h : RFC.Valid xof pk m sig) (hn : RFC.DecodesTo pk (n • B))
    (hz : sig ≠ List.replicate 114 0) :
    (Accepted pk → Accepted (sig.take 57) → ed448_verify xof pk sig m = .ok (.ok true)) ∧
    (¬ Accepted pk → ed448_verify xof pk sig m = .ok (.error .DecodePubkeyError)) ∧
    (Accepted pk → ¬ Accepted (sig.take 57) → ed448_verify xof pk sig m = .ok (.error .DecodeSignatureError)) := by
  obtain ⟨hl, A, R, hA, hR, hS, heq⟩ := h
  rw [decodesTo_iff] at hn hA hR
  have hAn : A = n • B := encodePoint_inj.mp (hA.symm.trans hn)
  subst hAn
  have hzz : ¬ ZeroInput pk sig := by
    rintro (h | h)
    · rw [hn] at h
      exact encode_smul_B_ne_zero n h
    · exact hz h
  have hd : (sig.drop 57).take 57 = sig.drop 57 := List.take_of_length_le (by simp [hl])
  refine ⟨fun ha hr => ?_, fun ha => ?_, fun ha hr => ?_⟩
  · refine C07_complete xof pk sig m (n • B) R hzz ha ?_ hl.ge hr ?_ ?_
    · rw [hn]; exact decodes_encode _
    · rw [hR]; exact decodes_encode _
    · rw [hd, cleared_smul_B, ← hn]
      exact heq
  · exact (C08_errors ..).mpr (Or.inr (Or.inr (Or.inl ⟨hzz, by rw [hn]; exact encodePoint_length _, ha, rfl⟩)))
  · exact (C08_errors ..).mpr (Or.inr (Or.inr (Or.inr ⟨hzz, ha, hl.ge, hr, rfl⟩)))

/-- C58, the other direction. If the library answers `Ok(false)` for a key in the subgroup generated by the base point and canonical
strings, the signature is not valid by RFC 8032. -/
theorem C58_false_invalid (xof : Xof) (pk sig m : List Byte) (n : ℕ) (hn : RFC.DecodesTo pk (n • B))
    (h : ed448_verify xof pk sig m = .ok (.ok false)) : ¬ RFC.Valid xof pk m sig := by
  rintro ⟨hl, A, R, hA, hR, hS, heq⟩
  rw [decodesTo_iff] at hn hA hR
  have hAn : A = n • B := encodePoint_inj.mp (hA.symm.trans hn)
  subst hAn
  have hd : (sig.drop 57).take 57 = sig.drop 57 := List.take_of_length_le (by simp [hl])
  refine C06_reject xof pk sig m (n • B) R h ?_ ?_ ?_
  · rw [hn]; exact decodes_encode _
  · rw [hR]; exact decodes_encode _
  · rw [hd, cleared_smul_B, ← hn]
    exact heq

/-- The key and the hash function of the example beside C05 satisfy the hypotheses of `C58_valid_accepted`, for every message. -/
example (m : List Byte) : ∃ (A : Arr Byte 57) (sig : Arr Byte 114), RFC.Valid Witness.oneXof A.1 m sig.1 ∧
    RFC.DecodesTo A.1 (keyScalar Witness.oneXof Witness.key0.1 • B) ∧ sig.1 ≠ List.replicate 114 0 := by
  obtain ⟨A, sig, h1, h2, h3, _⟩ := C57_valid_elsewhere Witness.oneXof Witness.key0 m
  obtain ⟨A', a1, a2⟩ := derive_spec Witness.oneXof Witness.key0
  obtain ⟨S', s1, s2⟩ := sign_spec Witness.oneXof Witness.key0 m
  obtain rfl := Except.ok.inj (h1.symm.trans a1)
  obtain rfl := Except.ok.inj (h2.symm.trans s1)
  refine ⟨A, sig, h3, decodesTo_iff.mpr a2, fun h => ?_⟩
  have := (sign_eq_parts Witness.oneXof (keyScalar Witness.oneXof Witness.key0.1) (keySeed Witness.oneXof Witness.key0.1) m).1
  rw [← s2, h] at this
  exact encode_smul_B_ne_zero _ (this.symm.trans (by simp))

/-! ### What signatures reveal -/

/-- The quotient modulo q of two differences of numbers. -/
noncomputable def quotient (S S' c c' : ℕ) : ℕ := (((S : ZMod q) - S') / ((c : ZMod q) - c')).val

theorem quotient_spec {S S' c c' : ℕ} (h : c % q ≠ c' % q) : (quotient S S' c c' * c + S') % q = (quotient S S' c c' * c' + S) % q := by
  have hne : (c : ZMod q) - c' ≠ 0 := by
    rw [sub_ne_zero]
    exact fun e => h ((ZMod.natCast_eq_natCast_iff' _ _ _).mp e)
  apply (ZMod.natCast_eq_natCast_iff' _ _ _).mp
  push_cast
  rw [quotient, ZMod.natCast_zmod_val]
  field_simp
  ring

theorem quotient_unique {S S' c c' n : ℕ} (h : c % q ≠ c' % q) (hn : (n * c + S') % q = (n * c' + S) % q) : n % q = quotient S S' c c' := by
  have hne : (c : ZMod q) - c' ≠ 0 := by
    rw [sub_ne_zero]
    exact fun e => h ((ZMod.natCast_eq_natCast_iff' _ _ _).mp e)
  have h1 := (ZMod.natCast_eq_natCast_iff' _ _ _).mpr hn
  push_cast at h1
  have h2 : (n : ZMod q) = ((S : ZMod q) - S') / ((c : ZMod q) - c') := by
    rw [eq_div_iff hne]
    linear_combination h1
  rw [quotient, ← h2, ZMod.val_natCast]

theorem reuse_signWith (xof : Xof) (s : ℕ) (pre pre' m m' : List Byte)
    (hR : (RFC.signWith xof s pre m).take 57 = (RFC.signWith xof s pre' m').take 57)
    (hc : RFC.challenge xof ((RFC.signWith xof s pre m).take 57) (RFC.publicOf s) m % q ≠
      RFC.challenge xof ((RFC.signWith xof s pre' m').take 57) (RFC.publicOf s) m' % q) :
    s % q = quotient (leNat ((RFC.signWith xof s pre m).drop 57)) (leNat ((RFC.signWith xof s pre' m').drop 57))
      (RFC.challenge xof ((RFC.signWith xof s pre m).take 57) (RFC.publicOf s) m)
      (RFC.challenge xof ((RFC.signWith xof s pre' m').take 57) (RFC.publicOf s) m') := by
  apply quotient_unique hc
  have hlt : ∀ n, n % q < 256 ^ 57 := fun n => by
    have := Nat.mod_lt n q_pos
    have := q_lt
    omega
  have key : ∀ pre m, leNat ((RFC.signWith xof s pre m).drop 57) = (RFC.nonce xof pre m +
      RFC.challenge xof ((RFC.signWith xof s pre m).take 57) (RFC.publicOf s) m * s) % q := fun pre m => by
    obtain ⟨h1, h2⟩ := sign_eq_parts xof s pre m
    rw [List.take_of_length_le (by simp [signWith_length])] at h2
    rw [h2, h1, leNat_leBytes, Nat.mod_eq_of_lt (hlt _)]
  rw [key, key]
  rw [(sign_eq_parts xof s pre m).1, (sign_eq_parts xof s pre' m').1, encodePoint_inj, smul_B_inj] at hR
  generalize RFC.challenge xof ((RFC.signWith xof s pre m).take 57) (RFC.publicOf s) m = c at *
  generalize RFC.challenge xof ((RFC.signWith xof s pre' m').take 57) (RFC.publicOf s) m' = c' at *
  apply (ZMod.natCast_eq_natCast_iff' _ _ _).mp
  have hR' := (ZMod.natCast_eq_natCast_iff' _ _ _).mpr hR
  push_cast
  simp only [ZMod.natCast_mod]
  push_cast
  linear_combination -hR'

/-- C59. Two signatures made with the same secret, whatever the nonce seeds are, that have the same first half reveal the secret scalar modulo q, unless their
challenges agree modulo q: it is the quotient of the difference of the second halves and the difference of the challenges. -/
theorem C59_nonce_reuse (xof : Xof) (secret n n' A : Arr Byte 57) (m m' : List Byte) (sig sig' : Arr Byte 114)
    (hA : secret_to_public secret = .ok A)
    (h : sign_with_secret_and_nonce xof secret n m = .ok sig) (h' : sign_with_secret_and_nonce xof secret n' m' = .ok sig')
    (hR : sig.1.take 57 = sig'.1.take 57)
    (hc : RFC.challenge xof (sig.1.take 57) A.1 m % q ≠ RFC.challenge xof (sig'.1.take 57) A.1 m' % q) :
    RFC.secretScalar secret.1 % q = quotient (leNat (sig.1.drop 57)) (leNat (sig'.1.drop 57))
      (RFC.challenge xof (sig.1.take 57) A.1 m) (RFC.challenge xof (sig'.1.take 57) A.1 m') := by
  obtain ⟨⟨A', a1, a2⟩, s, s1, s2⟩ := C50_with_secret xof secret n m
  obtain ⟨_, s', s3, s4⟩ := C50_with_secret xof secret n' m'
  obtain rfl := Except.ok.inj (hA.symm.trans a1)
  obtain rfl := Except.ok.inj (h.symm.trans s1)
  obtain rfl := Except.ok.inj (h'.symm.trans s3)
  rw [s2, s4] at hR hc ⊢
  rw [a2] at hc ⊢
  exact reuse_signWith xof _ n.1 n'.1 m m' hR hc

/-- C59, for the signatures of a key made with `ed448_sign`: two messages whose nonces collide modulo q. -/
theorem C59_nonce_collision (xof : Xof) (k A : Arr Byte 57) (m m' : List Byte) (sig sig' : Arr Byte 114)
    (hA : ed448_derive_public xof k = .ok A) (h : ed448_sign xof k m = .ok sig) (h' : ed448_sign xof k m' = .ok sig')
    (hR : sig.1.take 57 = sig'.1.take 57)
    (hc : RFC.challenge xof (sig.1.take 57) A.1 m % q ≠ RFC.challenge xof (sig'.1.take 57) A.1 m' % q) :
    keyScalar xof k.1 % q = quotient (leNat (sig.1.drop 57)) (leNat (sig'.1.drop 57))
      (RFC.challenge xof (sig.1.take 57) A.1 m) (RFC.challenge xof (sig'.1.take 57) A.1 m') := by
  obtain ⟨A', a1, a2⟩ := derive_spec xof k
  obtain ⟨s, s1, s2⟩ := sign_spec xof k m
  obtain ⟨s', s3, s4⟩ := sign_spec xof k m'
  obtain rfl := Except.ok.inj (hA.symm.trans a1)
  obtain rfl := Except.ok.inj (h.symm.trans s1)
  obtain rfl := Except.ok.inj (h'.symm.trans s3)
  rw [s2, s4] at hR hc ⊢
  rw [a2] at hc ⊢
  exact reuse_signWith xof _ _ _ m m' hR hc

/-- C59, for the verification equation: whoever can satisfy it for one R and two challenges that differ modulo q knows the discrete logarithm of the key
without its small-order component. -/
theorem C59_extract (S S' c c' : ℕ) (R A : E) (h : RFC.Equation S R A c) (h' : RFC.Equation S' R A c') (hc : c % q ≠ c' % q) :
    (q + 1) • A = quotient S S' c c' • B := by
  obtain ⟨n, _, hn⟩ := four_mem_B A
  obtain ⟨r, _, hr⟩ := four_mem_B R
  have h4 := q_mod_four
  have key : ∀ S c, RFC.Equation S R A c → (4 * S) % q = (r + n * c) % q := fun S c h => by
    rw [RFC.Equation, hr, smul_comm 4 c A, hn, smul_smul, smul_smul, ← add_smul, smul_B_inj, mul_comm c] at h
    exact h
  have h1 := (ZMod.natCast_eq_natCast_iff' _ _ _).mpr (key S c h)
  have h2 := (ZMod.natCast_eq_natCast_iff' _ _ _).mpr (key S' c' h')
  have hq := (ZMod.natCast_eq_natCast_iff' _ _ _).mpr (quotient_spec (S := S) (S' := S') hc)
  have hne : (c : ZMod q) - c' ≠ 0 := by
    rw [sub_ne_zero]
    exact fun e => hc ((ZMod.natCast_eq_natCast_iff' _ _ _).mp e)
  have h4q : (4 : ZMod q) * (((q + 1) / 4 : ℕ) : ZMod q) = 1 := by
    have : ((4 * ((q + 1) / 4) : ℕ) : ZMod q) = ((q + 1 : ℕ) : ZMod q) := by rw [show 4 * ((q + 1) / 4) = q + 1 by omega]
    push_cast at this
    rw [ZMod.natCast_self, zero_add] at this
    exact this
  rw [show q + 1 = (q + 1) / 4 * 4 by omega, mul_smul, hn, smul_smul, smul_B_inj]
  apply (ZMod.natCast_eq_natCast_iff' _ _ _).mp
  push_cast at h1 h2 hq h4q ⊢
  generalize (((q + 1) / 4 : ℕ) : ZMod q) = i at *
  generalize (quotient S S' c c' : ZMod q) = z at *
  apply mul_left_cancel₀ hne
  linear_combination (-i) * (h1 - h2) + (S - S') * h4q - hq

/-- The equation holds for R = B, the key 2B, and the challenges 1 and 2. -/
example : RFC.Equation 3 B (2 • B) 1 ∧ RFC.Equation 5 B (2 • B) 2 ∧ 1 % q ≠ 2 % q := by
  refine ⟨?_, ?_, ?_⟩
  · rw [RFC.Equation, one_smul, ← smul_add, show (3 : ℕ) = 1 + 2 from rfl, add_smul, one_smul]
  · rw [RFC.Equation, smul_smul 2 2, ← smul_add, show (5 : ℕ) = 1 + 2 * 2 from rfl, add_smul, one_smul]
  · rw [← qN_eq]; decide +kernel

/-- A hash function with constant nonces and with challenges that depend on the message: 1 for strings of less than 80 bytes, else the last byte. -/
def Witness.reuseXof : Xof := fun s i => if i = 0 then if s.length < 80 then 1 else s.getD (s.length - 1) 0 else 0

theorem Witness.reuse_short {s : List Byte} (h : s.length < 80) : leNat (RFC.hash Witness.reuseXof s 114) = 1 := by
  have : RFC.hash Witness.reuseXof s 114 = RFC.hash Witness.reuseXof [] 114 := by
    unfold RFC.hash Witness.reuseXof
    simp [h]
  rw [this]
  decide +kernel

theorem Witness.reuse_long {s : List Byte} (h : 70 ≤ s.length) (c : Byte) : leNat (RFC.hash Witness.reuseXof (s ++ (List.replicate 10 0 ++ [c])) 114) = c.toNat := by
  have : RFC.hash Witness.reuseXof (s ++ (List.replicate 10 0 ++ [c])) 114 = c :: List.replicate 113 0 := by
    unfold RFC.hash Witness.reuseXof
    rw [List.range_succ_eq_map, List.map_cons, List.map_map]
    have e : ¬ (s ++ (List.replicate 10 0 ++ [c])).length < 80 := by simp; omega
    simp only [e, if_true, if_false, Function.comp_def, Nat.succ_ne_zero, List.map_const', List.length_range]
    congr 1
    simp [List.getD]
  rw [this, leNat, show leNat (List.replicate 113 0) = 0 by decide +kernel]
  rfl

/-- With this hash function the hypotheses of `C59_nonce_collision` hold, for every key. -/
example (k : Arr Byte 57) : ∃ A sig sig', ed448_derive_public Witness.reuseXof k = .ok A ∧
    ed448_sign Witness.reuseXof k (List.replicate 10 0 ++ [1]) = .ok sig ∧ ed448_sign Witness.reuseXof k (List.replicate 10 0 ++ [2]) = .ok sig' ∧
    sig.1.take 57 = sig'.1.take 57 ∧ RFC.challenge Witness.reuseXof (sig.1.take 57) A.1 (List.replicate 10 0 ++ [1]) % q ≠
      RFC.challenge Witness.reuseXof (sig'.1.take 57) A.1 (List.replicate 10 0 ++ [2]) % q := by
  obtain ⟨A, a1, a2⟩ := derive_spec Witness.reuseXof k
  obtain ⟨s, s1, s2⟩ := sign_spec Witness.reuseXof k (List.replicate 10 0 ++ [1])
  obtain ⟨s', s3, s4⟩ := sign_spec Witness.reuseXof k (List.replicate 10 0 ++ [2])
  have hd : RFC.dom4.length = 10 := by decide +kernel
  have hn : ∀ c : Byte, RFC.nonce Witness.reuseXof (keySeed Witness.reuseXof k.1) (List.replicate 10 0 ++ [c]) = 1 := fun c => by
    rw [RFC.nonce]
    refine Witness.reuse_short ?_
    simp [hd, keySeed_length]
  have hc : ∀ (t : Arr Byte 114) (c : Byte), RFC.challenge Witness.reuseXof (t.1.take 57) A.1 (List.replicate 10 0 ++ [c]) = c.toNat := fun t c => by
    rw [RFC.challenge]
    refine Witness.reuse_long ?_ c
    simp only [List.length_append, List.length_take, t.2, A.2, hd]
    omega
  refine ⟨A, s, s', a1, s1, s3, ?_, ?_⟩
  · rw [s2, s4, (sign_eq_parts ..).1, (sign_eq_parts ..).1, hn, hn]
  · rw [hc, hc, ← qN_eq]
    decide +kernel

/-- C60. Any number r serves as nonce, and only the secret scalar modulo q is needed: for every number t that is the secret scalar modulo q, the
encoding of `r B` followed by `r + c t` modulo q, with the challenge c computed from it, verifies under the public key of the secret, if the decoder
accepts both strings. -/
theorem C60_any_nonce (xof : Xof) (k A : Arr Byte 57) (m : List Byte) (r t : ℕ) (hA : ed448_derive_public xof k = .ok A)
    (ht : t % q = keyScalar xof k.1 % q) (ha : Accepted A.1) (hr : Accepted (encodePoint (r • B))) :
    ed448_verify xof A.1 (encodePoint (r • B) ++ leBytes 57 ((r + RFC.challenge xof (encodePoint (r • B)) A.1 m * t) % q)) m = .ok (.ok true) := by
  obtain ⟨A', a1, a2⟩ := derive_spec xof k
  obtain rfl := Except.ok.inj (hA.symm.trans a1)
  rw [← smul_B_inj] at ht
  have hl : (encodePoint (r • B)).length = 57 := encodePoint_length _
  generalize hc : RFC.challenge xof (encodePoint (r • B)) A.1 m = c
  have htake : (encodePoint (r • B) ++ leBytes 57 ((r + c * t) % q)).take 57 = encodePoint (r • B) := List.take_left' hl
  have hdrop : ((encodePoint (r • B) ++ leBytes 57 ((r + c * t) % q)).drop 57).take 57 = leBytes 57 ((r + c * t) % q) := by
    rw [List.drop_left' hl, List.take_of_length_le (by simp)]
  refine C07_complete xof A.1 _ m (keyScalar xof k.1 • B) (r • B) ?_ ha (by rw [a2]; exact decodes_encode _) (by simp [hl]) (by rw [htake]; exact hr)
    (by rw [htake]; exact decodes_encode _) ?_
  · rintro (h | h)
    · rw [a2] at h
      exact encode_smul_B_ne_zero _ h
    · have := congrArg (List.take 57) h
      rw [htake] at this
      exact encode_smul_B_ne_zero r (this.trans (by simp))
  · have hlt : (r + c * t) % q < 256 ^ 57 := by
      have := Nat.mod_lt (r + c * t) q_pos
      have := q_lt
      omega
    rw [htake, hdrop, cleared_smul_B, ← a2, hc, leNat_leBytes, Nat.mod_eq_of_lt hlt, RFC.Equation, smul_B_mod, add_smul, mul_smul, ht, smul_add]

/-- The key and the nonce 1 of the example beside C05. -/
example : ∃ A, ed448_derive_public Witness.oneXof Witness.key0 = .ok A ∧ Accepted A.1 ∧ Accepted (encodePoint (1 • B)) := by
  obtain ⟨A, a1, a2⟩ := C03_derive_direct Witness.oneXof Witness.key0 Witness.key0_sign
  refine ⟨A, a1, ?_, ?_⟩
  · rw [a2]
    exact Witness.key0_accepted
  · rw [one_smul]
    exact Witness.B_accepted

/-- C61. Two keys of any kind have the same public key only if their secret scalars are equal. For keys that are hashed this means that the first 57 bytes of
the hashes agree outside of the clamped bits: a collision of public keys is a collision of the hash function. -/
theorem C61_public_key_binding (xof : Xof) (k k' : Arr Byte 57) :
    ed448_derive_public xof k = ed448_derive_public xof k' ↔ keyScalar xof k.1 = keyScalar xof k'.1 := by
  obtain ⟨A, a1, a2⟩ := derive_spec xof k
  obtain ⟨A', a3, a4⟩ := derive_spec xof k'
  rw [a1, a3]
  constructor
  · intro e
    have e2 := congrArg Subtype.val (Except.ok.inj e)
    rw [a2, a4, encodePoint_inj, smul_B_inj] at e2
    unfold keyScalar at e2 ⊢
    split at e2 <;> split at e2 <;> simp only [*, if_true, if_false] <;> exact secretScalar_inj e2
  · intro e
    exact congrArg _ (Subtype.ext (by rw [a2, a4, e]))

/-- C11, counting. Every accepted signature of 114 bytes has at least 1024 accepted variants with the same first half: the numbers `S mod q + i q`
with i < 1024 in the second half are all accepted, and are given by different strings. -/
theorem C11_variants (xof : Xof) (pk sig m : List Byte) (hl : sig.length = 114) (h : ed448_verify xof pk sig m = .ok (.ok true))
    (hz : sig.take 57 ≠ List.replicate 57 0) :
    (∀ i < 1024, ed448_verify xof pk (sig.take 57 ++ leBytes 57 (leNat (sig.drop 57) % q + i * q)) m = .ok (.ok true)) ∧
    ∀ i < 1024, ∀ j < 1024, i ≠ j → leBytes 57 (leNat (sig.drop 57) % q + i * q) ≠ leBytes 57 (leNat (sig.drop 57) % q + j * q) := by
  have hq : 1024 * q < 2 ^ 456 := by rw [q_def]; decide +kernel
  have hm := Nat.mod_lt (leNat (sig.drop 57)) q_pos
  have hb : ∀ i < 1024, leNat (sig.drop 57) % q + i * q < 256 ^ 57 := fun i hi => by
    have : i * q ≤ 1023 * q := Nat.mul_le_mul_right _ (by omega)
    norm_num at hq ⊢
    omega
  have hr : (sig.take 57).length = 57 := by simp [hl]
  have hs : (sig.drop 57).length = 57 := by simp [hl]
  have hne : ∀ s : List Byte, sig.take 57 ++ s ≠ List.replicate 114 0 := fun s h => hz (by
    have := congrArg (List.take 57) h
    rw [List.take_left' hr] at this
    rw [this]; simp)
  refine ⟨fun i hi => ?_, fun i hi j hj hij h => hij ?_⟩
  · rw [C11_S_mod_q xof pk (sig.take 57) _ (sig.drop 57) m hr (by simp) hs ?_ (hne _) (hne _), List.take_append_drop, h]
    rw [leNat_leBytes, Nat.mod_eq_of_lt (hb i hi), Nat.add_mul_mod_self_right, Nat.mod_mod]
  · have := leBytes_inj (hb i hi) (hb j hj) h
    exact Nat.eq_of_mul_eq_mul_right q_pos (Nat.add_left_cancel this)

/-- `n` calls of `SigningKey::random` one after the other, with the same generator. -/
def randomKeys {σ : Type} (xof : Xof) (rng : Rng σ) : ℕ → σ → Rust (List SigningKey × σ)
  | 0, st => .ok ([], st)
  | n + 1, st => do
    let (k, st) ← SigningKey.random xof rng st
    let (ks, st) ← randomKeys xof rng n st
    pure (k :: ks, st)

/-- C44, for histories. With a generator that delivers the bytes of a stream one after the other, the keys made by n calls are the n consecutive blocks of 57 bytes
of the stream from the current position on: no byte is used twice and none is skipped. -/
theorem C44_history (xof : Xof) (stream : ℕ → Byte) (rng : Rng ℕ)
    (hrng : ∀ n pos, (rng.fill_bytes n pos).1.1 = (List.range n).map (fun i => stream (pos + i)) ∧ (rng.fill_bytes n pos).2 = pos + n) (n pos : ℕ) :
    ∃ ks, randomKeys xof rng n pos = .ok (ks, pos + 57 * n) ∧ ks.length = n ∧
      ∀ i (h : i < ks.length), ks[i].to_bytes.1 = (List.range 57).map (fun j => stream (pos + 57 * i + j)) := by
  induction n generalizing pos with
  | zero => exact ⟨[], rfl, rfl, fun i h => absurd h (by simp)⟩
  | succ n ih =>
    obtain ⟨_, k, h1, h2, _⟩ := C44_random xof rng pos
    obtain ⟨e1, e2⟩ := hrng 57 pos
    obtain ⟨ks, h3, h4, h5⟩ := ih (pos + 57)
    refine ⟨k :: ks, ?_, by simp [h4], ?_⟩
    · rw [randomKeys, h1, e2, bind_ok]
      simp only []
      rw [h3, bind_ok]
      simp only [pure, Except.pure]
      congr 2
      omega
    · intro i hi
      rcases i with _ | i
      · simp only [List.getElem_cons_zero, h2, e1, Nat.mul_zero, Nat.add_zero]
      · simp only [List.getElem_cons_succ]
        rw [h5 i (by simpa using hi)]
        exact List.map_congr_left (fun j _ => by congr 1; omega)

/-- Such a generator. -/
example (stream : ℕ → Byte) : ∃ rng : Rng ℕ, ∀ n pos, (rng.fill_bytes n pos).1.1 = (List.range n).map (fun i => stream (pos + i)) ∧ (rng.fill_bytes n pos).2 = pos + n :=
  ⟨⟨fun n pos => (⟨(List.range n).map (fun i => stream (pos + i)), by simp⟩, pos + n)⟩, fun _ _ => ⟨rfl, rfl⟩⟩

end Ed448
