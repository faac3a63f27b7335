import Mathlib.Data.Nat.Bitwise
import Verif.Properties.Repaired
import Verif.Properties.OneRepair
import Verif.Properties.AsIs
import Verif.Spec.Fault

/-!
# C110: signatures that are made while the memory is disturbed
-/

namespace Ed448

set_option exponentiation.threshold 1000

attribute [local irreducible] precomputed_scalar_mul decode_long halve Pt.eddsa_like_encode

theorem one_dom (a b : List Byte) : hash_with_dom Witness.oneXof a 114 = hash_with_dom Witness.oneXof b 114 := rfl

theorem faulty_pub_one (m : List Byte) : Faulty.ed448_sign { Faults.none with pub := fun _ => ⟨List.replicate 57 0, by simp⟩ } Witness.oneXof Witness.key0 m =
    ed448_sign Witness.oneXof Witness.key0 m := by
  unfold Faulty.ed448_sign ed448_sign Faulty.sign_by_private sign_by_private Faulty.sign_with_secret_and_nonce sign_with_secret_and_nonce
  dsimp only [Faults.none, id]
  simp only [one_dom _ []]

theorem hash_with_dom_digest (xof : Xof) (m : List Byte) : hash_with_dom xof m 114 = digestOf xof m :=
  Subtype.ext (hash_with_dom_eq xof m 114)

/-- The common part of the two signing functions. -/
theorem faulty_core (φ : Faults) (xof : Xof) {P : Pt} {s t : ℕ} {pre m : List Byte} {sec : Scalar} (hP : P.eddsa_like_encode.1 = RFC.publicOf s)
    (hs : sec.val = t % q) :
    ∃ (sig : Arr Byte 114) (R A S : Arr Byte 57), (do
      let np ← precomputed_scalar_mul (halve (halve (decode_long (φ.nonce (hash_with_dom xof (pre ++ m) 114)).1)))
      pure (joinSig (φ.first np.eddsa_like_encode) (φ.second (scalarEncode (scalarAdd (scalarMul (decode_long
        (φ.challenge (hash_with_dom xof ((φ.first np.eddsa_like_encode).1 ++ (φ.pub P.eddsa_like_encode).1 ++ m) 114)).1) sec)
        (decode_long (φ.nonce (hash_with_dom xof (pre ++ m) 114)).1)))))) = (.ok sig : Rust (Arr Byte 114)) ∧
      R.1 = encodePoint (φ.nonceUsed xof pre m • B) ∧ A.1 = RFC.publicOf s ∧
      S.1 = leBytes 57 ((φ.nonceUsed xof pre m + φ.challengeUsed xof (φ.first R).1 A m * t) % q) ∧
      sig.1 = (φ.first R).1 ++ (φ.second S).1 := by
  obtain ⟨np, h1, h2⟩ := base_mul (φ.nonce (hash_with_dom xof (pre ++ m) 114)).1
  refine ⟨_, np.eddsa_like_encode, P.eddsa_like_encode, _, by rw [h1, bind_ok]; rfl, ?_, hP, ?_, rfl⟩
  · rw [h2, hash_with_dom_digest, Faults.nonceUsed]
  have hsec : sec.val < q := by rw [hs]; exact Nat.mod_lt _ q_pos
  have hr : ∀ b, (decode_long b).val < q := fun b => by rw [decode_long_val]; exact Nat.mod_lt _ q_pos
  rw [hash_with_dom_digest, hash_with_dom_digest]
  have hc := scalarMul_val (decode_long (φ.challenge (digestOf xof ((φ.first np.eddsa_like_encode).1 ++ (φ.pub P.eddsa_like_encode).1 ++ m))).1) sec hsec
  rw [scalarEncode_val, scalarAdd_val _ _ (by
    have := hr (φ.nonce (digestOf xof (pre ++ m))).1
    rw [hc]
    have := Nat.mod_lt ((decode_long (φ.challenge (digestOf xof ((φ.first np.eddsa_like_encode).1 ++ (φ.pub P.eddsa_like_encode).1 ++ m))).1).val * sec.val) q_pos
    omega), hc, decode_long_val, decode_long_val, hs]
  rw [← Nat.mul_mod, ← Nat.add_mod, Nat.add_comm]
  rfl

attribute [local irreducible] scalarAdd scalarMul scalarEncode hash_with_dom

theorem faulty_by_private (φ : Faults) (xof : Xof) (k : Arr Byte 57) (m : List Byte) :
    ∃ (sig : Arr Byte 114) (R A S : Arr Byte 57), Faulty.sign_by_private φ xof k m = .ok sig ∧
      R.1 = encodePoint (φ.nonceUsed xof ((RFC.hash xof k.1 114).drop 57) m • B) ∧ A.1 = RFC.publicOf (RFC.secretScalar ((RFC.hash xof k.1 114).take 57)) ∧
      S.1 = leBytes 57 ((φ.nonceUsed xof ((RFC.hash xof k.1 114).drop 57) m +
        φ.challengeUsed xof (φ.first R).1 A m * φ.scalarUsed (RFC.secretScalar ((RFC.hash xof k.1 114).take 57))) % q) ∧
      sig.1 = (φ.first R).1 ++ (φ.second S).1 := by
  have h57 : ((RFC.hash xof k.1 114).take 57).length = 57 := by rw [hash_take, hash_length]
  obtain ⟨P, h1, h2⟩ := point_by_secret_spec ⟨(clamp (sha3 xof k.1 114)).1.take 57, by simp [(clamp (sha3 xof k.1 114)).2]⟩
  have e1 : (clamp (sha3 xof k.1 114)).1.take 57 = clampList ((RFC.hash xof k.1 114).take 57) := clampList_take
  have e2 : (clamp (sha3 xof k.1 114)).1.drop 57 = (RFC.hash xof k.1 114).drop 57 := clampList_drop
  have e3 : (⟨(clamp (sha3 xof k.1 114)).1.take 57, by simp [(clamp (sha3 xof k.1 114)).2]⟩ : Arr Byte 57) =
      ⟨leBytes 57 (RFC.secretScalar ((RFC.hash xof k.1 114).take 57)), by simp⟩ := Subtype.ext (e1.trans (clamped_bytes h57))
  have hs : (decode_long (φ.key ⟨(clamp (sha3 xof k.1 114)).1.take 57, by simp [(clamp (sha3 xof k.1 114)).2]⟩).1).val =
      φ.scalarUsed (RFC.secretScalar ((RFC.hash xof k.1 114).take 57)) % q := by
    rw [e3, decode_long_val, Faults.scalarUsed]
  have h3 : P.eddsa_like_encode.1 = RFC.publicOf (RFC.secretScalar ((RFC.hash xof k.1 114).take 57)) := by
    rw [h2]
    simp only
    rw [e1, secretScalar_clamp h57]
  obtain ⟨sig, R, A, S, h4, h5⟩ := faulty_core φ xof (pre := (RFC.hash xof k.1 114).drop 57) (m := m) h3 hs
  refine ⟨sig, R, A, S, ?_, h5⟩
  unfold Faulty.sign_by_private
  dsimp only
  rw [h1, bind_ok, e2]
  exact h4

theorem faulty_with_secret (φ : Faults) (xof : Xof) (k n : Arr Byte 57) (m : List Byte) :
    ∃ (sig : Arr Byte 114) (R A S : Arr Byte 57), Faulty.sign_with_secret_and_nonce φ xof k n m = .ok sig ∧
      R.1 = encodePoint (φ.nonceUsed xof n.1 m • B) ∧ A.1 = RFC.publicOf (RFC.secretScalar k.1) ∧
      S.1 = leBytes 57 ((φ.nonceUsed xof n.1 m + φ.challengeUsed xof (φ.first R).1 A m * φ.scalarUsed (RFC.secretScalar k.1)) % q) ∧
      sig.1 = (φ.first R).1 ++ (φ.second S).1 := by
  obtain ⟨P, h1, h2⟩ := point_by_secret_spec k
  have e3 : clamp k = ⟨leBytes 57 (RFC.secretScalar k.1), by simp⟩ := Subtype.ext (clamped_bytes k.2)
  have hs : (decode_long (φ.key (clamp k)).1).val = φ.scalarUsed (RFC.secretScalar k.1) % q := by
    rw [e3, decode_long_val, Faults.scalarUsed]
  obtain ⟨sig, R, A, S, h4, h5⟩ := faulty_core φ xof (pre := n.1) (m := m) h2 hs
  refine ⟨sig, R, A, S, ?_, h5⟩
  unfold Faulty.sign_with_secret_and_nonce
  dsimp only
  rw [h1, bind_ok]
  exact h4

/-- What `ed448_sign` returns when the memory is disturbed. -/
theorem faulty_spec (φ : Faults) (xof : Xof) (k : Arr Byte 57) (m : List Byte) :
    ∃ (sig : Arr Byte 114) (R A S : Arr Byte 57), Faulty.ed448_sign φ xof k m = .ok sig ∧ ed448_derive_public xof k = .ok A ∧
      R.1 = encodePoint (φ.nonceUsed xof (keySeed xof k.1) m • B) ∧
      S.1 = leBytes 57 ((φ.nonceUsed xof (keySeed xof k.1) m + φ.challengeUsed xof (φ.first R).1 A m * φ.scalarUsed (keyScalar xof k.1)) % q) ∧
      sig.1 = (φ.first R).1 ++ (φ.second S).1 := by
  obtain ⟨A', a1, a2⟩ := derive_spec xof k
  by_cases h : signBit k.1 = 0
  · obtain ⟨sig, R, A, S, h1, h2, h3, h4, h5⟩ := faulty_by_private φ xof k m
    have e1 : keyScalar xof k.1 = RFC.secretScalar ((RFC.hash xof k.1 114).take 57) := by rw [keyScalar, if_pos h]
    have e2 : keySeed xof k.1 = (RFC.hash xof k.1 114).drop 57 := by rw [keySeed, if_pos h]
    rw [← e1] at h3 h4
    rw [← e2] at h2 h4
    obtain rfl : A = A' := Subtype.ext (h3.trans a2.symm)
    refine ⟨sig, R, A, S, ?_, a1, h2, h4, h5⟩
    rw [Faulty.ed448_sign, topBitClear_eq, h]
    exact h1
  · obtain ⟨sig, R, A, S, h1, h2, h3, h4, h5⟩ := faulty_with_secret φ xof (clamp k) (clamp k) m
    have e0 : (clamp k).1 = clampList k.1 := rfl
    have e1 : keyScalar xof k.1 = RFC.secretScalar (clamp k).1 := by rw [keyScalar, if_neg h, e0, secretScalar_clamp k.2]
    have e2 : keySeed xof k.1 = (clamp k).1 := by rw [keySeed, if_neg h, e0, clamped_bytes k.2]
    rw [← e1] at h3 h4
    rw [← e2] at h2 h4
    obtain rfl : A = A' := Subtype.ext (h3.trans a2.symm)
    refine ⟨sig, R, A, S, ?_, a1, h2, h4, h5⟩
    have hb : signBit k.1 = 1 := by have := signBit_lt k.1; omega
    rw [Faulty.ed448_sign, topBitClear_eq, hb]
    exact h1

/-- C110. Without faults the functions are those of the library. -/
theorem C110_none (xof : Xof) (k : Arr Byte 57) (m : List Byte) : Faulty.ed448_sign .none xof k m = ed448_sign xof k m := rfl

theorem leNat_second {n : ℕ} : leNat (leBytes 57 (n % q)) = n % q := by
  have := Nat.mod_lt n q_pos
  have := q_lt
  rw [leNat_leBytes, Nat.mod_eq_of_lt (by omega)]

theorem nonceUsed_id {φ : Faults} (h : φ.nonce = id) (xof : Xof) (pre m : List Byte) : φ.nonceUsed xof pre m = RFC.nonce xof pre m := by
  rw [Faults.nonceUsed, h, RFC.nonce, List.append_assoc]
  rfl

theorem challengeUsed_id {φ : Faults} (h : φ.pub = id) (h' : φ.challenge = id) (xof : Xof) (R : List Byte) (A : Arr Byte 57) (m : List Byte) :
    φ.challengeUsed xof R A m = RFC.challenge xof R A.1 m := by
  rw [Faults.challengeUsed, h, h', RFC.challenge, List.append_assoc, List.append_assoc]
  show leNat (RFC.hash xof _ 114) = _
  rw [List.append_assoc]
  rfl

theorem keyScalar_lt (xof : Xof) (k : List Byte) : keyScalar xof k < 256 ^ 57 := by
  rw [keyScalar]
  split <;> exact secretScalar_lt _

theorem scalarUsed_id {φ : Faults} (h : φ.key = id) (xof : Xof) (k : List Byte) : φ.scalarUsed (keyScalar xof k) = keyScalar xof k := by
  rw [Faults.scalarUsed, h]
  show leNat (leBytes 57 _) = _
  rw [leNat_leBytes, Nat.mod_eq_of_lt (keyScalar_lt xof k)]

/-- The parts of a signature with and without faults. -/
theorem faulty_parts {φ : Faults} {xof : Xof} {k A : Arr Byte 57} {m : List Byte} {sig sig' : Arr Byte 114} (hA : ed448_derive_public xof k = .ok A)
    (h : ed448_sign xof k m = .ok sig) (h' : Faulty.ed448_sign φ xof k m = .ok sig') :
    A.1 = encodePoint (keyScalar xof k.1 • B) ∧
    sig.1.take 57 = encodePoint (RFC.nonce xof (keySeed xof k.1) m • B) ∧
    leNat (sig.1.drop 57) = (RFC.nonce xof (keySeed xof k.1) m + RFC.challenge xof (sig.1.take 57) A.1 m * keyScalar xof k.1) % q ∧
    ∃ R S : Arr Byte 57, R.1 = encodePoint (φ.nonceUsed xof (keySeed xof k.1) m • B) ∧
      leNat S.1 = (φ.nonceUsed xof (keySeed xof k.1) m + φ.challengeUsed xof (sig'.1.take 57) A m * φ.scalarUsed (keyScalar xof k.1)) % q ∧
      sig'.1.take 57 = (φ.first R).1 ∧ sig'.1.drop 57 = (φ.second S).1 := by
  obtain ⟨A', a1, a2⟩ := derive_spec xof k
  obtain rfl := Except.ok.inj (hA.symm.trans a1)
  obtain ⟨s, s1, s2⟩ := sign_spec xof k m
  obtain rfl := Except.ok.inj (h.symm.trans s1)
  obtain ⟨s', R, A', S, f1, f2, f3, f4, f5⟩ := faulty_spec φ xof k m
  obtain rfl := Except.ok.inj (h'.symm.trans f1)
  obtain rfl := Except.ok.inj (hA.symm.trans f2)
  obtain ⟨p1, p2⟩ := sign_eq_parts xof (keyScalar xof k.1) (keySeed xof k.1) m
  rw [← s2] at p1 p2
  rw [List.take_of_length_le (by simp [sig.2])] at p2
  have g1 : sig'.1.take 57 = (φ.first R).1 := by rw [f5, List.take_left' (φ.first R).2]
  have g2 : sig'.1.drop 57 = (φ.second S).1 := by rw [f5, List.drop_left' (φ.first R).2]
  refine ⟨a2, p1, ?_, R, S, f3, ?_, g1, g2⟩
  · rw [p2, leNat_second, p1, a2, RFC.publicOf]
  · rw [f4, leNat_second, g1]

/-- C110. Whatever happens to the first half of the signature, to the public key or to the challenge, after the nonce has been made: the disturbed
signature together with the right one of the same message gives away the secret scalar, if the challenges that were used are known and differ. -/
theorem C110_leak (φ : Faults) (hk : φ.key = id) (hn : φ.nonce = id) (hs : φ.second = id) (xof : Xof) (k A : Arr Byte 57) (m : List Byte) (sig sig' : Arr Byte 114)
    (hA : ed448_derive_public xof k = .ok A) (h : ed448_sign xof k m = .ok sig) (h' : Faulty.ed448_sign φ xof k m = .ok sig')
    (hc : RFC.challenge xof (sig.1.take 57) A.1 m % q ≠ φ.challengeUsed xof (sig'.1.take 57) A m % q) :
    keyScalar xof k.1 % q = quotient (leNat (sig.1.drop 57)) (leNat (sig'.1.drop 57)) (RFC.challenge xof (sig.1.take 57) A.1 m)
      (φ.challengeUsed xof (sig'.1.take 57) A m) := by
  obtain ⟨_, _, h3, R, S, _, h5, _, h7⟩ := faulty_parts hA h h'
  rw [hs] at h7
  rw [h7]
  show _ = quotient _ (leNat S.1) _ _
  apply quotient_unique hc
  rw [h3, h5, nonceUsed_id hn, scalarUsed_id hk]
  apply (ZMod.natCast_eq_natCast_iff' _ _ _).mp
  push_cast
  simp only [ZMod.natCast_mod]
  push_cast
  ring

/-- C110. A disturbed first half: the challenge that was used can be computed from the disturbed signature, so that everybody who sees the two signatures
can compute the secret scalar. -/
theorem C110_first (f : Arr Byte 57 → Arr Byte 57) (xof : Xof) (k A : Arr Byte 57) (m : List Byte) (sig sig' : Arr Byte 114)
    (hA : ed448_derive_public xof k = .ok A) (h : ed448_sign xof k m = .ok sig)
    (h' : Faulty.ed448_sign { Faults.none with first := f } xof k m = .ok sig')
    (hc : RFC.challenge xof (sig.1.take 57) A.1 m % q ≠ RFC.challenge xof (sig'.1.take 57) A.1 m % q) :
    keyScalar xof k.1 % q = quotient (leNat (sig.1.drop 57)) (leNat (sig'.1.drop 57)) (RFC.challenge xof (sig.1.take 57) A.1 m)
      (RFC.challenge xof (sig'.1.take 57) A.1 m) := by
  have e := challengeUsed_id (φ := { Faults.none with first := f }) rfl rfl xof (sig'.1.take 57) A m
  rw [← e] at hc ⊢
  exact C110_leak _ rfl rfl rfl xof k A m sig sig' hA h h' hc

theorem leNat_set {l : List Byte} {j : ℕ} (hj : j < l.length) (b : Byte) : leNat (l.set j b) + 256 ^ j * (l[j]).toNat = leNat l + 256 ^ j * b.toNat := by
  induction l generalizing j with
  | nil => simp at hj
  | cons x t ih =>
    cases j with
    | zero => simp [leNat]; ring
    | succ j =>
      have := ih (j := j) (by simpa using hj)
      simp only [List.set_cons_succ, leNat, List.getElem_cons_succ, pow_succ]
      linarith

theorem byte_change {l : List Byte} {j : ℕ} (hj : j < l.length) {b : Byte} (hb : b ≠ l[j]) : leNat l % q ≠ leNat (l.set j b) % q := by
  intro h
  have h1 := leNat_set hj b
  have h2 := (ZMod.natCast_eq_natCast_iff' _ _ _).mpr h
  have h3 := congrArg (Nat.cast : ℕ → ZMod q) h1
  push_cast at h3
  have h4 : ((256 : ZMod q)) ^ j * ((b.toNat : ZMod q) - (l[j]).toNat) = 0 := by linear_combination -h3 - h2
  have hq : 256 < q := by rw [q_def]; decide +kernel
  rcases mul_eq_zero.mp h4 with h5 | h5
  · have h6 : ((256 : ℕ) : ZMod q) = 0 := by
      push_cast
      rcases Nat.eq_zero_or_pos j with rfl | hj
      · simp at h5
      · exact (pow_eq_zero_iff hj.ne').mp h5
    rw [ZMod.natCast_eq_zero_iff] at h6
    exact absurd (Nat.le_of_dvd (by norm_num) h6) (by omega)
  · have h6 := (ZMod.natCast_eq_natCast_iff' _ _ _).mp (sub_eq_zero.mp h5)
    have := b.isLt
    have := (l[j]).isLt
    rw [Nat.mod_eq_of_lt (by omega), Nat.mod_eq_of_lt (by omega)] at h6
    exact hb (BitVec.eq_of_toNat_eq h6)

/-- C110. If one byte of the challenge is changed, be it by one bit, the two signatures always give away the secret scalar: for every hash function, key and
message. The first halves agree, so that everybody sees what happened, and there are only 114 * 255 ways to change a byte. -/
theorem C110_byte (j : ℕ) (b : Byte) (hj : j < 114) (φ : Faults) (hφ : φ = { Faults.none with challenge := fun l => ⟨l.1.set j b, by simp [l.2]⟩ })
    (xof : Xof) (k A : Arr Byte 57) (m : List Byte) (sig sig' : Arr Byte 114)
    (hA : ed448_derive_public xof k = .ok A) (h : ed448_sign xof k m = .ok sig) (h' : Faulty.ed448_sign φ xof k m = .ok sig')
    (hb : (RFC.hash xof (RFC.dom4 ++ sig.1.take 57 ++ A.1 ++ m) 114)[j]? ≠ some b) :
    sig'.1.take 57 = sig.1.take 57 ∧
    keyScalar xof k.1 % q = quotient (leNat (sig.1.drop 57)) (leNat (sig'.1.drop 57)) (RFC.challenge xof (sig.1.take 57) A.1 m)
      (leNat ((RFC.hash xof (RFC.dom4 ++ sig.1.take 57 ++ A.1 ++ m) 114).set j b)) := by
  subst hφ
  obtain ⟨_, h2, _, R, S, h4, _, h6, _⟩ := faulty_parts hA h h'
  have hR : sig'.1.take 57 = sig.1.take 57 := by
    rw [h6, h2]
    show R.1 = _
    rw [h4, nonceUsed_id rfl]
  have hlen : j < (RFC.hash xof (RFC.dom4 ++ sig.1.take 57 ++ A.1 ++ m) 114).length := by rw [hash_length]; exact hj
  have e : Faults.challengeUsed { Faults.none with challenge := fun l => ⟨l.1.set j b, by simp [l.2]⟩ } xof (sig'.1.take 57) A m =
      leNat ((RFC.hash xof (RFC.dom4 ++ sig.1.take 57 ++ A.1 ++ m) 114).set j b) := by
    rw [hR, List.append_assoc, List.append_assoc]
    show leNat ((RFC.hash xof (RFC.dom4 ++ (sig.1.take 57 ++ A.1 ++ m)) 114).set j b) = _
    rw [List.append_assoc]
  refine ⟨hR, ?_⟩
  rw [← e]
  refine C110_leak _ rfl rfl rfl xof k A m sig sig' hA h h' ?_
  rw [e]
  refine byte_change hlen fun hb' => hb ?_
  rw [List.getElem?_eq_getElem hlen, hb']

/-- C110. Checking before release: as long as nonce and first half are right, a disturbed signature that is valid is the right signature, whatever happened
to the scalar, the public key, the challenge and the second half. -/
theorem C110_check (φ : Faults) (hn : φ.nonce = id) (hf : φ.first = id) (xof : Xof) (k A : Arr Byte 57) (m : List Byte) (sig sig' : Arr Byte 114)
    (hA : ed448_derive_public xof k = .ok A) (h : ed448_sign xof k m = .ok sig) (h' : Faulty.ed448_sign φ xof k m = .ok sig')
    (hv : RFC.Valid xof A.1 m sig'.1) : sig' = sig := by
  obtain ⟨_, h2, _, R, S, h4, _, h6, _⟩ := faulty_parts hA h h'
  have hR : sig'.1.take 57 = sig.1.take 57 := by
    rw [h6, h2, hf]
    show R.1 = _
    rw [h4, nonceUsed_id hn]
  obtain ⟨A', s, a1, a2, ⟨l1, P, Q, v1, v2, v3, v4⟩, _⟩ := C57_valid_elsewhere xof k m
  obtain rfl := Except.ok.inj (hA.symm.trans a1)
  obtain rfl := Except.ok.inj (h.symm.trans a2)
  obtain ⟨l2, P', Q', w1, w2, w3, w4⟩ := hv
  rw [decodesTo_iff] at v1 v2 w1 w2
  obtain rfl : P = P' := encodePoint_inj.mp (v1.symm.trans w1)
  obtain rfl : Q = Q' := encodePoint_inj.mp (v2.symm.trans (hR.symm.trans w2))
  rw [hR] at w4
  have e := C46_unique_S _ _ _ _ _ w4 v4
  rw [Nat.mod_eq_of_lt w3, Nat.mod_eq_of_lt v3] at e
  apply Subtype.ext
  rw [← List.take_append_drop 57 sig'.1, ← List.take_append_drop 57 sig.1, hR, leNat_inj (by simp [l1, l2]) e]

/-- C110. The same when only the first half is disturbed: a valid result starts with one of the four points that differ from the right one by a point of
order 1, 2 or 4. -/
theorem C110_check_first (f : Arr Byte 57 → Arr Byte 57) (xof : Xof) (k A : Arr Byte 57) (m : List Byte) (sig sig' : Arr Byte 114)
    (hA : ed448_derive_public xof k = .ok A) (h : ed448_sign xof k m = .ok sig)
    (h' : Faulty.ed448_sign { Faults.none with first := f } xof k m = .ok sig') (hv : RFC.Valid xof A.1 m sig'.1) :
    ∃ R T : E, RFC.DecodesTo (sig.1.take 57) R ∧ RFC.DecodesTo (sig'.1.take 57) (R + T) ∧ 4 • T = 0 := by
  obtain ⟨h1, h2, _, R, S, _, h5, _, h7⟩ := faulty_parts hA h h'
  obtain ⟨_, P, Q, w1, w2, w3, w4⟩ := hv
  rw [decodesTo_iff] at w1
  obtain rfl : P = keyScalar xof k.1 • B := encodePoint_inj.mp (w1.symm.trans h1)
  refine ⟨RFC.nonce xof (keySeed xof k.1) m • B, Q - RFC.nonce xof (keySeed xof k.1) m • B, decodesTo_iff.mpr h2, by rwa [add_sub_cancel], ?_⟩
  have e : leNat (sig'.1.drop 57) = (RFC.nonce xof (keySeed xof k.1) m + RFC.challenge xof (sig'.1.take 57) A.1 m * keyScalar xof k.1) % q := by
    rw [h7]
    show leNat S.1 = _
    rw [h5, nonceUsed_id rfl, challengeUsed_id rfl rfl, scalarUsed_id rfl]
  rw [RFC.Equation, e, smul_B_mod, add_smul, mul_smul, smul_add, add_left_inj] at w4
  rw [smul_sub, w4, sub_self]

/-- C110. A disturbed nonce passes every check: the result is always a valid signature. -/
theorem C110_nonce_valid (f : Arr Byte 114 → Arr Byte 114) (xof : Xof) (k A : Arr Byte 57) (m : List Byte) (sig' : Arr Byte 114)
    (hA : ed448_derive_public xof k = .ok A) (h' : Faulty.ed448_sign { Faults.none with nonce := f } xof k m = .ok sig') :
    RFC.Valid xof A.1 m sig'.1 := by
  obtain ⟨sig, h, _⟩ := sign_spec xof k m
  obtain ⟨h1, _, _, R, S, h4, h5, h6, h7⟩ := faulty_parts hA h h'
  rw [challengeUsed_id rfl rfl, scalarUsed_id rfl] at h5
  have e : leNat (sig'.1.drop 57) = (Faults.nonceUsed { Faults.none with nonce := f } xof (keySeed xof k.1) m +
      RFC.challenge xof (sig'.1.take 57) A.1 m * keyScalar xof k.1) % q := by
    rw [h7]
    exact h5
  refine ⟨sig'.2, _, _, decodesTo_iff.mpr h1, decodesTo_iff.mpr (h6.trans h4), ?_, ?_⟩
  · rw [e]; exact Nat.mod_lt _ q_pos
  · rw [RFC.Equation, e, smul_B_mod, add_smul, mul_smul, smul_add]

/-- C110. If it is known by how much the nonce was changed, the valid signature that comes out and the right one give away the secret scalar. -/
theorem C110_nonce_leak (f : Arr Byte 114 → Arr Byte 114) (δ : ℕ) (xof : Xof) (k A : Arr Byte 57) (m : List Byte) (sig sig' : Arr Byte 114)
    (hA : ed448_derive_public xof k = .ok A) (h : ed448_sign xof k m = .ok sig)
    (h' : Faulty.ed448_sign { Faults.none with nonce := f } xof k m = .ok sig')
    (hδ : Faults.nonceUsed { Faults.none with nonce := f } xof (keySeed xof k.1) m % q = (RFC.nonce xof (keySeed xof k.1) m + δ) % q)
    (hc : RFC.challenge xof (sig.1.take 57) A.1 m % q ≠ RFC.challenge xof (sig'.1.take 57) A.1 m % q) :
    keyScalar xof k.1 % q = quotient (leNat (sig.1.drop 57) + δ) (leNat (sig'.1.drop 57)) (RFC.challenge xof (sig.1.take 57) A.1 m)
      (RFC.challenge xof (sig'.1.take 57) A.1 m) := by
  obtain ⟨_, _, h3, R, S, _, h5, _, h7⟩ := faulty_parts hA h h'
  rw [challengeUsed_id rfl rfl, scalarUsed_id rfl] at h5
  rw [h7]
  show _ = quotient _ (leNat S.1) _ _
  apply quotient_unique hc
  rw [h3, h5]
  have hd := (ZMod.natCast_eq_natCast_iff' _ _ _).mpr hδ
  apply (ZMod.natCast_eq_natCast_iff' _ _ _).mp
  push_cast at hd ⊢
  simp only [ZMod.natCast_mod]
  push_cast
  linear_combination hd

/-- C110. The three faults of the first half that are not noticed: every point that differs from the right one by a point of order 2 or 4 gives a valid
signature. -/
theorem C110_unnoticed (f : Arr Byte 57 → Arr Byte 57) (xof : Xof) (k A : Arr Byte 57) (m : List Byte) (sig sig' : Arr Byte 114)
    (hA : ed448_derive_public xof k = .ok A) (h : ed448_sign xof k m = .ok sig)
    (h' : Faulty.ed448_sign { Faults.none with first := f } xof k m = .ok sig') (R T : E) (hR : RFC.DecodesTo (sig.1.take 57) R)
    (hRT : RFC.DecodesTo (sig'.1.take 57) (R + T)) (hT : 4 • T = 0) : RFC.Valid xof A.1 m sig'.1 := by
  obtain ⟨h1, h2, _, R', S, _, h5, _, h7⟩ := faulty_parts hA h h'
  have hR' : R = RFC.nonce xof (keySeed xof k.1) m • B := encodePoint_inj.mp ((decodesTo_iff.mp hR).symm.trans h2)
  have e : leNat (sig'.1.drop 57) = (RFC.nonce xof (keySeed xof k.1) m + RFC.challenge xof (sig'.1.take 57) A.1 m * keyScalar xof k.1) % q := by
    rw [h7]
    show leNat S.1 = _
    rw [h5, nonceUsed_id rfl, challengeUsed_id rfl rfl, scalarUsed_id rfl]
  refine ⟨sig'.2, _, _, decodesTo_iff.mpr h1, hRT, ?_, ?_⟩
  · rw [e]; exact Nat.mod_lt _ q_pos
  · rw [RFC.Equation, e, smul_B_mod, add_smul, mul_smul, smul_add 4 R, hT, add_zero, hR', smul_add]

/-- C110, for the verifier of C80, which accepts what is valid by RFC 8032. -/
theorem C110_repaired (φ : Faults) (hn : φ.nonce = id) (hf : φ.first = id) (xof : Xof) (k A : Arr Byte 57) (m : List Byte) (sig sig' : Arr Byte 114)
    (hA : ed448_derive_public xof k = .ok A) (h : ed448_sign xof k m = .ok sig) (h' : Faulty.ed448_sign φ xof k m = .ok sig')
    (hv : Repaired.ed448_verify xof A.1 sig'.1 m = .ok (.ok true)) : sig' = sig :=
  C110_check φ hn hf xof k A m sig sig' hA h h' ((C80_exact xof A.1 sig'.1 m).1.mp hv).2

/-- C110, for all ways of verifying that satisfy the equation of RFC 8032: the second half is the right one modulo q. -/
theorem C110_loose (ρ : Reading) (φ : Faults) (hn : φ.nonce = id) (hf : φ.first = id) (xof : Xof) (k A : Arr Byte 57) (m : List Byte) (sig sig' : Arr Byte 114)
    (hA : ed448_derive_public xof k = .ok A) (h : ed448_sign xof k m = .ok sig) (h' : Faulty.ed448_sign φ xof k m = .ok sig')
    (hv : Loose ρ xof A.1 m sig'.1) : sig'.1.take 57 = sig.1.take 57 ∧ leNat (sig'.1.drop 57) % q = leNat (sig.1.drop 57) := by
  obtain ⟨_, h2, _, R, S, h4, _, h6, _⟩ := faulty_parts hA h h'
  have hR : sig'.1.take 57 = sig.1.take 57 := by
    rw [h6, h2, hf]
    show R.1 = _
    rw [h4, nonceUsed_id hn]
  obtain ⟨A', s, a1, a2, ⟨l1, P, Q, v1, v2, v3, v4⟩, _⟩ := C57_valid_elsewhere xof k m
  obtain rfl := Except.ok.inj (hA.symm.trans a1)
  obtain rfl := Except.ok.inj (h.symm.trans a2)
  obtain ⟨l2, P', Q', w1, w2, w4⟩ := hv
  rw [decodesTo_iff] at v1 v2 w1
  obtain rfl : P = P' := encodePoint_inj.mp (v1.symm.trans w1)
  rw [hR] at w2 w4
  rw [List.take_of_length_le (by simp [sig'.2])] at w4
  have hq : 4 • Q' = 4 • Q := ρ.same w2 (ρ.point (by rw [v2]; exact decodes_encode _))
  have w5 : RFC.Equation (leNat (sig'.1.drop 57)) Q P (RFC.challenge xof (sig.1.take 57) A.1 m) := by
    rw [RFC.Equation, ← hq]
    exact w4
  refine ⟨hR, ?_⟩
  rw [C46_unique_S _ _ _ _ _ w5 v4, Nat.mod_eq_of_lt v3]

/-- C110, for a verifier that contains the first repair, the exact comparison. -/
theorem C110_one_repair (r : Repairs) (hr : r.limb15 = true) (φ : Faults) (hn : φ.nonce = id) (hf : φ.first = id) (xof : Xof) (k A : Arr Byte 57) (m : List Byte)
    (sig sig' : Arr Byte 114) (hA : ed448_derive_public xof k = .ok A) (h : ed448_sign xof k m = .ok sig) (h' : Faulty.ed448_sign φ xof k m = .ok sig')
    (hv : r.ed448_verify xof A.1 sig'.1 m = .ok (.ok true)) : sig'.1.take 57 = sig.1.take 57 ∧ leNat (sig'.1.drop 57) % q = leNat (sig.1.drop 57) :=
  C110_loose plain φ hn hf xof k A m sig sig' hA h h' (C87_loose r hr xof k A m sig'.1 hA hv)

/-- C110, for the verifier as it is: there may also be a near miss (C96). -/
theorem C110_as_is (φ : Faults) (hn : φ.nonce = id) (hf : φ.first = id) (xof : Xof) (k A : Arr Byte 57) (m : List Byte) (sig sig' : Arr Byte 114)
    (hA : ed448_derive_public xof k = .ok A) (h : ed448_sign xof k m = .ok sig) (h' : Faulty.ed448_sign φ xof k m = .ok sig')
    (hv : ed448_verify xof A.1 sig'.1 m = .ok (.ok true)) :
    sig'.1.take 57 = sig.1.take 57 ∧ leNat (sig'.1.drop 57) % q = leNat (sig.1.drop 57) ∨ NearMiss xof A.1 m sig'.1 := by
  rcases Classical.em (Loose asRead xof A.1 m sig'.1) with hl | hl
  · exact Or.inl (C110_loose asRead φ hn hf xof k A m sig sig' hA h h' hl)
  · exact Or.inr ((C96_accepted xof k A m _ hA hv).1.mpr hl)

/-- C110, the other direction: the verifier as it is cannot tell a signature with the right second half modulo q from the right one. -/
theorem C110_same_answer (φ : Faults) (hn : φ.nonce = id) (hf : φ.first = id) (xof : Xof) (k A : Arr Byte 57) (m : List Byte) (sig sig' : Arr Byte 114)
    (hA : ed448_derive_public xof k = .ok A) (h : ed448_sign xof k m = .ok sig) (h' : Faulty.ed448_sign φ xof k m = .ok sig')
    (hS : leNat (sig'.1.drop 57) % q = leNat (sig.1.drop 57)) (pk m' : List Byte) : ed448_verify xof pk sig'.1 m' = ed448_verify xof pk sig.1 m' := by
  obtain ⟨_, h2, h3, R, S, h4, _, h6, _⟩ := faulty_parts hA h h'
  have hR : sig'.1.take 57 = sig.1.take 57 := by
    rw [h6, h2, hf]
    show R.1 = _
    rw [h4, nonceUsed_id hn]
  have hz : ∀ t, sig.1.take 57 ++ t ≠ List.replicate 114 0 := fun t e => by
    have := congrArg (List.take 57) e
    rw [List.take_left' (by simp [sig.2]), h2] at this
    exact encode_smul_B_ne_zero _ this
  rw [← List.take_append_drop 57 sig'.1, ← List.take_append_drop 57 sig.1, hR]
  refine C11_S_mod_q xof pk _ _ _ m' (by simp [sig.2]) (by simp [sig'.2]) (by simp [sig.2]) ?_ (hz _) (hz _)
  rw [hS, h3, Nat.mod_mod]

/-- There is such a fault for every key and message: q is added to the second half. -/
example (xof : Xof) (k : Arr Byte 57) (m : List Byte) : ∃ (f : Arr Byte 57 → Arr Byte 57) (A : Arr Byte 57) (sig sig' : Arr Byte 114),
    ed448_derive_public xof k = .ok A ∧ ed448_sign xof k m = .ok sig ∧ Faulty.ed448_sign { Faults.none with second := f } xof k m = .ok sig' ∧
    leNat (sig'.1.drop 57) % q = leNat (sig.1.drop 57) ∧ sig' ≠ sig := by
  obtain ⟨A, hA, _⟩ := derive_spec xof k
  obtain ⟨sig, h, _⟩ := sign_spec xof k m
  let f : Arr Byte 57 → Arr Byte 57 := fun l => ⟨leBytes 57 (leNat l.1 + q), by simp⟩
  obtain ⟨sig', _, _, _, h', _⟩ := faulty_spec { Faults.none with second := f } xof k m
  obtain ⟨_, h2, h3, R, S, h4, h5, h6, h7⟩ := faulty_parts hA h h'
  have hR : sig'.1.take 57 = sig.1.take 57 := by
    rw [h6, h2]
    show R.1 = _
    rw [h4, nonceUsed_id rfl]
  have hS : leNat S.1 = leNat (sig.1.drop 57) := by rw [h5, h3, nonceUsed_id rfl, challengeUsed_id rfl rfl, scalarUsed_id rfl, hR]
  have hlt : leNat (sig.1.drop 57) < q := by rw [h3]; exact Nat.mod_lt _ q_pos
  have := q_pos
  have e : leNat (sig'.1.drop 57) = leNat (sig.1.drop 57) + q := by
    have := q_lt
    rw [h7]
    show leNat (leBytes 57 (leNat S.1 + q)) = _
    rw [leNat_leBytes, hS, Nat.mod_eq_of_lt (by omega)]
  refine ⟨f, A, sig, sig', hA, h, h', by rw [e, Nat.add_mod_right, Nat.mod_eq_of_lt hlt], fun hs => ?_⟩
  rw [hs] at e
  omega

/-- C110. A disturbed secret scalar: the disturbed signature alone, with the public key and the message, tells everybody by how much the scalar was changed,
because there is only one number that fits. -/
theorem C110_scalar (f : Arr Byte 57 → Arr Byte 57) (xof : Xof) (k A : Arr Byte 57) (m : List Byte) (sig' : Arr Byte 114) (P R : E)
    (hA : ed448_derive_public xof k = .ok A) (h' : Faulty.ed448_sign { Faults.none with key := f } xof k m = .ok sig')
    (hP : RFC.DecodesTo A.1 P) (hR : RFC.DecodesTo (sig'.1.take 57) R) (hc : RFC.challenge xof (sig'.1.take 57) A.1 m % q ≠ 0) (δ : ℤ) :
    leNat (sig'.1.drop 57) • B = R + RFC.challenge xof (sig'.1.take 57) A.1 m • (P + δ • B) ↔
      (q : ℤ) ∣ keyScalar xof k.1 + δ - Faults.scalarUsed { Faults.none with key := f } (keyScalar xof k.1) := by
  obtain ⟨sig, h, _⟩ := sign_spec xof k m
  obtain ⟨h1, _, _, R', S, h4, h5, h6, h7⟩ := faulty_parts hA h h'
  rw [challengeUsed_id rfl rfl, nonceUsed_id rfl] at h5
  rw [decodesTo_iff] at hP hR
  have e1 : P = keyScalar xof k.1 • B := encodePoint_inj.mp (hP.symm.trans h1)
  have e2 : R = RFC.nonce xof (keySeed xof k.1) m • B := by
    refine encodePoint_inj.mp (hR.symm.trans (h6.trans ?_))
    show R'.1 = _
    rw [h4, nonceUsed_id rfl]
  have e3 : leNat (sig'.1.drop 57) = leNat S.1 := by rw [h7]; rfl
  rw [e3, h5, e1, e2, smul_B_mod]
  generalize RFC.challenge xof (sig'.1.take 57) A.1 m = c at *
  generalize keyScalar xof k.1 = s
  generalize Faults.scalarUsed _ s = t
  generalize RFC.nonce xof (keySeed xof k.1) m = n
  have hq : ∀ z : ℤ, z • B = 0 ↔ (q : ℤ) ∣ z := fun z => by rw [← order_B, addOrderOf_dvd_iff_zsmul_eq_zero]
  rw [add_smul, add_right_inj, ← sub_eq_zero, ← neg_eq_zero, show -((c * t) • B - c • (s • B + δ • B)) = ((c : ℤ) * (s + δ - t)) • B by
    simp only [← natCast_zsmul]
    push_cast
    module, hq]
  have hp : Prime (q : ℤ) := Nat.prime_iff_prime_int.mp q_prime
  rw [hp.dvd_mul, or_iff_right]
  rw [Int.natCast_dvd_natCast, Nat.dvd_iff_mod_eq_zero]
  exact hc

theorem xor_bit (s n : ℕ) : ((s ^^^ 2 ^ n : ℕ) : ℤ) = if s.testBit n then (s : ℤ) - 2 ^ n else s + 2 ^ n := by
  induction n generalizing s with
  | zero =>
    have h1 := Nat.xor_mod_two_eq (m := s) (n := 1)
    have h2 : (s ^^^ 1) / 2 = s / 2 := by rw [Nat.xor_div_two]; simp
    rw [pow_zero, pow_zero, Nat.testBit_zero]
    by_cases h : s % 2 = 1
    · simp only [h, decide_true, if_true]; omega
    · simp only [h, decide_false, Bool.false_eq_true, if_false]; omega
  | succ n ih =>
    have h1 := Nat.xor_mod_two_eq (m := s) (n := 2 ^ (n + 1))
    have h2 : (s ^^^ 2 ^ (n + 1)) / 2 = s / 2 ^^^ 2 ^ n := by rw [Nat.xor_div_two, pow_succ, Nat.mul_div_cancel _ (by norm_num)]
    have h3 := ih (s / 2)
    rw [← h2] at h3
    rw [Nat.testBit_succ]
    have h4 : (2 : ℕ) ^ (n + 1) = 2 * 2 ^ n := by ring
    have h5 : (2 : ℤ) ^ (n + 1) = 2 * 2 ^ n := by ring
    rw [h4] at h1 ⊢
    rw [h5]
    rw [h4] at h3
    generalize (2 : ℕ) ^ n = a at *
    generalize (2 : ℤ) ^ n = b at *
    split_ifs at h3 ⊢ <;> push_cast at h3 <;> omega

theorem pow_pm (j : ℕ) (h0 : j ≠ 0) (h : j < 456) : ¬ (q : ℤ) ∣ 2 ^ j - 1 ∧ ¬ (q : ℤ) ∣ 2 ^ j + 1 := by
  have key : ∀ j < 456, j ≠ 0 → 2 ^ j % q ≠ 1 ∧ (2 ^ j + 1) % q ≠ 0 := by rw [q_def]; decide +kernel
  obtain ⟨k1, k2⟩ := key j h h0
  have hq : 1 < q := q_prime.one_lt
  refine ⟨fun hd => k1 ?_, fun hd => k2 ?_⟩
  · have h1 : (2 ^ j : ℕ) ≡ 1 [MOD q] := by
      refine (Nat.modEq_iff_dvd.mpr ?_).symm
      push_cast
      exact hd
    rw [h1, Nat.mod_eq_of_lt hq]
  · exact Nat.mod_eq_zero_of_dvd (by exact_mod_cast hd)

theorem two_pow_pm (a b : ℕ) (hab : a < b) (hb : b < 456) : ¬ (q : ℤ) ∣ 2 ^ b - 2 ^ a ∧ ¬ (q : ℤ) ∣ 2 ^ b + 2 ^ a := by
  obtain ⟨j, rfl⟩ := Nat.exists_eq_add_of_lt hab
  obtain ⟨h1, h2⟩ := pow_pm (j + 1) (by omega) (by omega)
  have hp : Prime (q : ℤ) := Nat.prime_iff_prime_int.mp q_prime
  have h2' : ¬ (q : ℤ) ∣ 2 ^ a := fun hj => by
    have h3 : q ∣ 2 := by exact_mod_cast hp.dvd_of_dvd_pow hj
    exact absurd (Nat.le_of_dvd (by norm_num) h3) (by rw [q_def]; decide +kernel)
  refine ⟨fun h => ?_, fun h => ?_⟩
  · rw [show (2 : ℤ) ^ (a + j + 1) - 2 ^ a = 2 ^ a * (2 ^ (j + 1) - 1) by ring] at h
    exact (hp.dvd_or_dvd h).elim h2' h1
  · rw [show (2 : ℤ) ^ (a + j + 1) + 2 ^ a = 2 ^ a * (2 ^ (j + 1) + 1) by ring] at h
    exact (hp.dvd_or_dvd h).elim h2' h2

/-- C110. One flipped bit of the secret scalar: of the 912 numbers 2^i and -2^i one fits, so that everybody who sees the disturbed signature can tell which
bit was flipped and what it was. -/
theorem C110_bit (n i : ℕ) (hn : n < 456) (hi : i < 456) (xof : Xof) (k A : Arr Byte 57) (m : List Byte) (sig' : Arr Byte 114) (P R : E)
    (hA : ed448_derive_public xof k = .ok A) (h' : Faulty.ed448_sign (.flip n) xof k m = .ok sig')
    (hP : RFC.DecodesTo A.1 P) (hR : RFC.DecodesTo (sig'.1.take 57) R) (hc : RFC.challenge xof (sig'.1.take 57) A.1 m % q ≠ 0) :
    (leNat (sig'.1.drop 57) • B = R + RFC.challenge xof (sig'.1.take 57) A.1 m • (P + 2 ^ i • B) ↔ i = n ∧ (keyScalar xof k.1).testBit n = false) ∧
    (leNat (sig'.1.drop 57) • B = R + RFC.challenge xof (sig'.1.take 57) A.1 m • (P - 2 ^ i • B) ↔ i = n ∧ (keyScalar xof k.1).testBit n = true) := by
  have e : (((Faults.flip n).scalarUsed (keyScalar xof k.1) : ℕ) : ℤ) = ((keyScalar xof k.1 ^^^ 2 ^ n : ℕ) : ℤ) := by
    rw [Nat.cast_inj]
    show leNat (leBytes 57 (leNat (leBytes 57 (keyScalar xof k.1)) ^^^ 2 ^ n)) = _
    have hk := keyScalar_lt xof k.1
    rw [leNat_leBytes, leNat_leBytes, Nat.mod_eq_of_lt hk, Nat.mod_eq_of_lt]
    rw [show 256 ^ 57 = 2 ^ 456 by norm_num] at hk ⊢
    exact Nat.xor_lt_two_pow hk (Nat.pow_lt_pow_right (by norm_num) hn)
  have hd : ¬ (q : ℤ) ∣ 2 ^ i + 2 ^ n := fun hj => by
    rcases lt_trichotomy i n with h | rfl | h
    · exact (two_pow_pm i n h hn).2 (by rwa [add_comm])
    · rw [← two_mul, ← pow_succ'] at hj
      have h3 : q ∣ 2 := by exact_mod_cast (Nat.prime_iff_prime_int.mp q_prime).dvd_of_dvd_pow hj
      exact absurd (Nat.le_of_dvd (by norm_num) h3) (by rw [q_def]; decide +kernel)
    · exact (two_pow_pm n i h hi).2 hj
  have hs : (q : ℤ) ∣ 2 ^ i - 2 ^ n ↔ i = n := by
    refine ⟨fun hj => ?_, fun h => by simp [h]⟩
    rcases lt_trichotomy i n with h | h | h
    · exact absurd (by rwa [dvd_sub_comm] at hj) (two_pow_pm i n h hn).1
    · exact h
    · exact absurd hj (two_pow_pm n i h hi).1
  have h1 := C110_scalar _ xof k A m sig' P R hA h' hP hR hc (2 ^ i)
  have h2 := C110_scalar _ xof k A m sig' P R hA h' hP hR hc (-2 ^ i)
  have e' : (2 ^ i : ℤ) • B = 2 ^ i • B := by exact_mod_cast natCast_zsmul B (2 ^ i)
  rw [e'] at h1
  rw [neg_smul, e', ← sub_eq_add_neg] at h2
  rw [h1, h2]
  change ((q : ℤ) ∣ _ - (((Faults.flip n).scalarUsed (keyScalar xof k.1) : ℕ) : ℤ) ↔ _) ∧ ((q : ℤ) ∣ _ - (((Faults.flip n).scalarUsed (keyScalar xof k.1) : ℕ) : ℤ) ↔ _)
  rw [e, xor_bit]
  cases hb : (keyScalar xof k.1).testBit n
  · simp only [Bool.false_eq_true, if_false, and_true, and_false, iff_false]
    refine ⟨?_, fun h => hd ?_⟩
    · rw [← hs, show ∀ s : ℤ, s + 2 ^ i - (s + 2 ^ n) = 2 ^ i - 2 ^ n from fun s => by ring]
    · rw [← dvd_neg]
      exact h.trans (dvd_of_eq (by ring))
  · simp only [if_true, and_true, and_false, iff_false, Bool.true_eq_false]
    refine ⟨fun h => hd (h.trans (dvd_of_eq (by ring))), ?_⟩
    rw [← hs, ← dvd_neg, show ∀ s : ℤ, -(s + -2 ^ i - (s - 2 ^ n)) = 2 ^ i - 2 ^ n from fun s => by ring]

theorem sum_bits (s N : ℕ) : s % 2 ^ N = ∑ n ∈ Finset.range N, (s.testBit n).toNat * 2 ^ n := by
  induction N with
  | zero => simp [Nat.mod_one]
  | succ N ih =>
    have e : (s.testBit N).toNat = s / 2 ^ N % 2 := by
      rw [Nat.testBit_eq_decide_div_mod_eq]
      rcases Nat.mod_two_eq_zero_or_one (s / 2 ^ N) with h | h <;> rw [h] <;> rfl
    rw [Finset.sum_range_succ, ← ih, Nat.mod_pow_succ, e, Nat.mul_comm (2 ^ N)]

open Classical in
/-- C110. Signatures with a flipped bit for every position, of any messages: the secret scalar can be written down. -/
theorem C110_all_bits (xof : Xof) (k A : Arr Byte 57) (m : ℕ → List Byte) (sig' : ℕ → Arr Byte 114) (P : E) (R : ℕ → E)
    (hA : ed448_derive_public xof k = .ok A) (h' : ∀ n < 456, Faulty.ed448_sign (.flip n) xof k (m n) = .ok (sig' n))
    (hP : RFC.DecodesTo A.1 P) (hR : ∀ n < 456, RFC.DecodesTo ((sig' n).1.take 57) (R n))
    (hc : ∀ n < 456, RFC.challenge xof ((sig' n).1.take 57) A.1 (m n) % q ≠ 0) :
    keyScalar xof k.1 = ∑ n ∈ Finset.range 456,
      if leNat ((sig' n).1.drop 57) • B = R n + RFC.challenge xof ((sig' n).1.take 57) A.1 (m n) • (P - 2 ^ n • B) then 2 ^ n else 0 := by
  have hk := keyScalar_lt xof k.1
  rw [show 256 ^ 57 = 2 ^ 456 by norm_num] at hk
  conv_lhs => rw [← Nat.mod_eq_of_lt hk, sum_bits]
  refine Finset.sum_congr rfl fun n hn => ?_
  have hn := Finset.mem_range.mp hn
  rw [(C110_bit n n hn hn xof k A (m n) (sig' n) P (R n) hA (h' n hn) hP (hR n hn) (hc n hn)).2]
  cases (keyScalar xof k.1).testBit n <;> simp

/-! ### Cases that meet the hypotheses -/

/-- A hash whose output is the byte after the prefix of ten bytes. -/
def Witness.byteXof : Xof := fun m i => if i = 0 then m.getD 10 0 else 0

theorem Witness.byteXof_val (m : List Byte) : leNat (RFC.hash Witness.byteXof m 114) = (m.getD 10 0).toNat := by
  have e : RFC.hash Witness.byteXof m 114 = m.getD 10 0 :: List.replicate 113 0 := rfl
  rw [e, leNat, show leNat (List.replicate 113 (0 : Byte)) = 0 by decide +kernel]
  omega

theorem Witness.byteXof_dom (a : Byte) (t : List Byte) : leNat (RFC.hash Witness.byteXof (RFC.dom4 ++ (a :: t)) 114) = a.toNat := by
  rw [Witness.byteXof_val]
  rfl

theorem Witness.byteXof_challenge (a : Byte) (t A m : List Byte) : RFC.challenge Witness.byteXof (a :: t) A m = a.toNat := by
  rw [RFC.challenge, List.append_assoc, List.append_assoc]
  exact Witness.byteXof_dom a _

/-- A fault that adds one to the first byte of the first half meets the hypothesis of `C110_first`, for every key and message. -/
example (k : Arr Byte 57) (m : List Byte) : ∃ (f : Arr Byte 57 → Arr Byte 57) (A : Arr Byte 57) (sig sig' : Arr Byte 114),
    ed448_derive_public Witness.byteXof k = .ok A ∧ ed448_sign Witness.byteXof k m = .ok sig ∧
    Faulty.ed448_sign { Faults.none with first := f } Witness.byteXof k m = .ok sig' ∧
    RFC.challenge Witness.byteXof (sig.1.take 57) A.1 m % q ≠ RFC.challenge Witness.byteXof (sig'.1.take 57) A.1 m % q := by
  obtain ⟨A, hA, _⟩ := derive_spec Witness.byteXof k
  obtain ⟨sig, h, _⟩ := sign_spec Witness.byteXof k m
  let f : Arr Byte 57 → Arr Byte 57 := fun l => ⟨l.1.set 0 (l.1.getD 0 0 + 1), by simp [l.2]⟩
  obtain ⟨sig', _, _, _, h', _⟩ := faulty_spec { Faults.none with first := f } Witness.byteXof k m
  refine ⟨f, A, sig, sig', hA, h, h', ?_⟩
  obtain ⟨_, h2, _, R, S, h4, _, h6, _⟩ := faulty_parts hA h h'
  have hR : sig.1.take 57 = R.1 := by rw [h2, h4, nonceUsed_id rfl]
  obtain ⟨R, hl⟩ := R
  match R, hl, hR, h6 with
  | a :: t, hl, hR, h6 =>
    have h6 : sig'.1.take 57 = (a + 1) :: t := h6
    rw [hR, h6, Witness.byteXof_challenge, Witness.byteXof_challenge]
    have hq : 256 < q := by rw [q_def]; decide +kernel
    have := a.isLt
    have := (a + 1).isLt
    rw [Nat.mod_eq_of_lt (by omega), Nat.mod_eq_of_lt (by omega)]
    exact (show ∀ a : Byte, a.toNat ≠ (a + 1).toNat by decide) a

/-- A fault of the first half that is not noticed, for every key and message: the point of order two is added. -/
example (xof : Xof) (k : Arr Byte 57) (m : List Byte) : ∃ (f : Arr Byte 57 → Arr Byte 57) (A : Arr Byte 57) (sig sig' : Arr Byte 114) (R T : E),
    ed448_derive_public xof k = .ok A ∧ ed448_sign xof k m = .ok sig ∧ Faulty.ed448_sign { Faults.none with first := f } xof k m = .ok sig' ∧
    RFC.DecodesTo (sig.1.take 57) R ∧ RFC.DecodesTo (sig'.1.take 57) (R + T) ∧ 4 • T = 0 ∧ T ≠ 0 := by
  obtain ⟨A, hA, _⟩ := derive_spec xof k
  obtain ⟨sig, h, _⟩ := sign_spec xof k m
  let f : Arr Byte 57 → Arr Byte 57 := fun _ => ⟨encodePoint (RFC.nonce xof (keySeed xof k.1) m • B + T2), encodePoint_length _⟩
  obtain ⟨sig', _, _, _, h', _⟩ := faulty_spec { Faults.none with first := f } xof k m
  obtain ⟨_, h2, _, _, _, _, _, h6, _⟩ := faulty_parts hA h h'
  refine ⟨f, A, sig, sig', RFC.nonce xof (keySeed xof k.1) m • B, T2, hA, h, h', decodesTo_iff.mpr h2, decodesTo_iff.mpr h6, ?_, T2_ne_zero⟩
  rw [show 4 = 2 * 2 from rfl, mul_smul, two_smul ℕ T2, T2_double, smul_zero]

/-- A fault of the public key that has no influence: the result is valid. -/
example (m : List Byte) : ∃ A sig', ed448_derive_public Witness.oneXof Witness.key0 = .ok A ∧
    Faulty.ed448_sign { Faults.none with pub := fun _ => ⟨List.replicate 57 0, by simp⟩ } Witness.oneXof Witness.key0 m = .ok sig' ∧
    RFC.Valid Witness.oneXof A.1 m sig'.1 := by
  obtain ⟨A, sig, h1, h2, h3, _⟩ := C57_valid_elsewhere Witness.oneXof Witness.key0 m
  exact ⟨A, sig, h1, (faulty_pub_one m).trans h2, h3⟩

/-- A fault of the nonce as in `C110_nonce_leak`: 0 becomes 1. -/
example (m : List Byte) : ∃ (f : Arr Byte 114 → Arr Byte 114) (A : Arr Byte 57) (sig sig' : Arr Byte 114),
    ed448_derive_public Witness.byteXof Witness.key0 = .ok A ∧ ed448_sign Witness.byteXof Witness.key0 m = .ok sig ∧
    Faulty.ed448_sign { Faults.none with nonce := f } Witness.byteXof Witness.key0 m = .ok sig' ∧
    Faults.nonceUsed { Faults.none with nonce := f } Witness.byteXof (keySeed Witness.byteXof Witness.key0.1) m % q =
      (RFC.nonce Witness.byteXof (keySeed Witness.byteXof Witness.key0.1) m + 1) % q ∧
    RFC.challenge Witness.byteXof (sig.1.take 57) A.1 m % q ≠ RFC.challenge Witness.byteXof (sig'.1.take 57) A.1 m % q := by
  let f : Arr Byte 114 → Arr Byte 114 := fun l => ⟨l.1.set 0 1, by simp [l.2]⟩
  obtain ⟨A, hA, _⟩ := derive_spec Witness.byteXof Witness.key0
  obtain ⟨sig, h, _⟩ := sign_spec Witness.byteXof Witness.key0 m
  obtain ⟨sig', _, _, _, h', _⟩ := faulty_spec { Faults.none with nonce := f } Witness.byteXof Witness.key0 m
  obtain ⟨_, h2, _, R, S, h4, _, h6, _⟩ := faulty_parts hA h h'
  have hs : keySeed Witness.byteXof Witness.key0.1 = leBytes 57 (2 ^ 447) := by
    rw [keySeed, if_neg (by rw [Witness.key0_sign]; norm_num), Witness.key0_scalar]
  have e0 : RFC.nonce Witness.byteXof (keySeed Witness.byteXof Witness.key0.1) m = 0 := by
    rw [hs, RFC.nonce, List.append_assoc, show leBytes 57 (2 ^ 447) = 0 :: (leBytes 57 (2 ^ 447)).tail by decide +kernel]
    exact Witness.byteXof_dom 0 _
  have e1 : Faults.nonceUsed { Faults.none with nonce := f } Witness.byteXof (keySeed Witness.byteXof Witness.key0.1) m = 1 := by
    show leNat ((RFC.hash Witness.byteXof (RFC.dom4 ++ (keySeed Witness.byteXof Witness.key0.1 ++ m)) 114).set 0 1) = 1
    show leNat ((1 : Byte) :: List.replicate 113 0) = 1
    decide +kernel
  have g1 : sig.1.take 57 = 1 :: (encodePoint 0).tail := by
    rw [h2, e0, zero_smul]
    decide +kernel
  have g2 : sig'.1.take 57 = 0x14 :: (encodePoint B).tail := by
    rw [h6]
    show R.1 = _
    rw [h4, e1, one_smul]
    decide +kernel
  refine ⟨f, A, sig, sig', hA, h, h', by rw [e0, e1], ?_⟩
  rw [g1, g2, Witness.byteXof_challenge, Witness.byteXof_challenge]
  rw [q_def]
  decide +kernel

/-- A byte of the challenge that is not zero is set to zero. -/
example (R A m : List Byte) : (RFC.hash Witness.oneXof (RFC.dom4 ++ R ++ A ++ m) 114)[0]? ≠ some 0 := by
  show some (1 : Byte) ≠ some 0
  decide

/-- A case for `C110_scalar` and `C110_bit`: every message and every bit of one key. -/
example (n : ℕ) (m : List Byte) : ∃ (A : Arr Byte 57) (sig' : Arr Byte 114) (P R : E), ed448_derive_public Witness.oneXof Witness.key0 = .ok A ∧
    Faulty.ed448_sign (.flip n) Witness.oneXof Witness.key0 m = .ok sig' ∧ RFC.DecodesTo A.1 P ∧ RFC.DecodesTo (sig'.1.take 57) R ∧
    RFC.challenge Witness.oneXof (sig'.1.take 57) A.1 m % q ≠ 0 := by
  obtain ⟨A, hA, _⟩ := derive_spec Witness.oneXof Witness.key0
  obtain ⟨sig, h, _⟩ := sign_spec Witness.oneXof Witness.key0 m
  obtain ⟨sig', _, _, _, h', _⟩ := faulty_spec (.flip n) Witness.oneXof Witness.key0 m
  obtain ⟨h1, _, _, R, S, h4, _, h6, _⟩ := faulty_parts hA h h'
  refine ⟨A, sig', _, _, hA, h', decodesTo_iff.mpr h1, decodesTo_iff.mpr (h6.trans h4), ?_⟩
  rw [show RFC.challenge Witness.oneXof (sig'.1.take 57) A.1 m = leNat (RFC.hash Witness.oneXof [] 114) from rfl, q_def]
  decide +kernel

end Ed448
