import Verif.Properties.Api

/-!
# The hashed strings: C28, and the public signing functions on arbitrary arguments: C49, C50
-/

set_option exponentiation.threshold 1000

namespace Ed448

/-- C28, first part. The string hashed for the challenge determines its parts. -/
theorem C28_binding (R R' A A' m m' : List Byte) (hR : R.length = 57) (hR' : R'.length = 57) (hA : A.length = 57) (hA' : A'.length = 57)
    (h : RFC.dom4 ++ R ++ A ++ m = RFC.dom4 ++ R' ++ A' ++ m') : R = R' ∧ A = A' ∧ m = m' := by
  rw [List.append_assoc, List.append_assoc, List.append_assoc, List.append_assoc] at h
  have h1 := List.append_cancel_left h
  obtain ⟨h2, h3⟩ := List.append_inj h1 (by rw [hR, hR'])
  obtain ⟨h4, h5⟩ := List.append_inj h3 (by rw [hA, hA'])
  exact ⟨h2, h4, h5⟩

example : (encodePoint B).length = 57 := encodePoint_length B

/-- C28, second part. The string hashed for a challenge is the one hashed for a nonce only if the seed of the nonce is the first half of the signature
and the message signed there begins with the public key. -/
theorem C28_separation (pre R A m m' : List Byte) (hp : pre.length = 57) (hR : R.length = 57)
    (h : RFC.dom4 ++ pre ++ m = RFC.dom4 ++ R ++ A ++ m') : pre = R ∧ m = A ++ m' := by
  rw [List.append_assoc, List.append_assoc, List.append_assoc] at h
  exact List.append_inj (List.append_cancel_left h) (by rw [hp, hR])

theorem hash_congr {xof xof' : Xof} {s : List Byte} (h : ∀ i, xof s i = xof' s i) (n : ℕ) : RFC.hash xof s n = RFC.hash xof' s n := by
  unfold RFC.hash
  exact List.map_congr_left (fun i _ => h i)

theorem keySeed_length (xof : Xof) (k : List Byte) : (keySeed xof k).length = 57 := by
  unfold keySeed
  split <;> simp [hash_length]

attribute [local irreducible] ed448_sign ed448_derive_public RFC.hash RFC.dom4 eddsa_like_decode verifyPoints Pt.eddsa_like_encode Pt.point_scalar_mul

/-- C28, third part. Signing hashes three strings only: the key (if its top bit is clear), the domain separator with the seed and the message, and the domain separator
with the first half of the signature, the public key and the message. With another hash function that agrees on these, the signature is the
same. -/
theorem C28_sign_queries (xof xof' : Xof) (k A : Arr Byte 57) (m : List Byte) (sig : Arr Byte 114)
    (hA : ed448_derive_public xof k = .ok A) (hs : ed448_sign xof k m = .ok sig)
    (h1 : signBit k.1 = 0 → ∀ i, xof k.1 i = xof' k.1 i)
    (h2 : ∀ i, xof (RFC.dom4 ++ keySeed xof k.1 ++ m) i = xof' (RFC.dom4 ++ keySeed xof k.1 ++ m) i)
    (h3 : ∀ i, xof (RFC.dom4 ++ sig.1.take 57 ++ A.1 ++ m) i = xof' (RFC.dom4 ++ sig.1.take 57 ++ A.1 ++ m) i) :
    ed448_sign xof' k m = .ok sig := by
  obtain ⟨A', a1, a2⟩ := derive_spec xof k
  rw [hA] at a1
  replace a1 := Except.ok.inj a1
  subst a1
  obtain ⟨sig', s1, s2⟩ := sign_spec xof k m
  rw [hs] at s1
  replace s1 := Except.ok.inj s1
  subst s1
  obtain ⟨sig', t1, t2⟩ := sign_spec xof' k m
  rw [t1]
  have e1 : keyScalar xof' k.1 = keyScalar xof k.1 := by
    unfold keyScalar
    split
    · next h => rw [hash_congr (h1 h)]
    · rfl
  have e2 : keySeed xof' k.1 = keySeed xof k.1 := by
    unfold keySeed
    split
    · next h => rw [hash_congr (h1 h)]
    · rfl
  have e3 : RFC.nonce xof' (keySeed xof k.1) m = RFC.nonce xof (keySeed xof k.1) m := by
    unfold RFC.nonce
    rw [hash_congr h2]
  have e4 : sig.1.take 57 = encodePoint (RFC.nonce xof (keySeed xof k.1) m • B) := by
    rw [s2, RFC.signWith, List.take_left' (encodePoint_length _)]
  rw [e4, a2] at h3
  refine congrArg Except.ok (Subtype.ext ?_)
  rw [t2, s2, e1, e2, RFC.signWith, RFC.signWith, e3]
  rw [RFC.challenge, RFC.challenge, RFC.publicOf, hash_congr h3]

/-- Two hash functions that differ elsewhere. -/
example : ∃ xof xof' : Xof, xof ≠ xof' ∧ ∀ s i, s ≠ [] → xof s i = xof' s i :=
  ⟨fun _ _ => 0, fun s _ => if s = [] then 1 else 0, fun h => absurd (congrFun (congrFun h []) 0) (by decide),
    fun s i h => (if_neg h).symm⟩

/-- C28, fourth part. Verification hashes one string only: the domain separator, the first half of the signature, a public key and the message. The public key
is computed from the bytes given; if these encode a point `A` it is the encoding of `[q + 1]A`, and if they are the encoding of a multiple of the base point, as all
derived public keys are, it is these bytes, so that the string is the one hashed by signing. -/
theorem C28_verify_query (pk : List Byte) : ∃ A' : List Byte, A'.length = 57 ∧
    (Accepted pk → ∀ A, Decodes pk A → A' = encodePoint ((q + 1) • A)) ∧
    (Accepted pk → ∀ n : ℕ, pk = encodePoint (n • B) → A' = pk) ∧
    ∀ (xof xof' : Xof) (sig m : List Byte),
      (∀ i, xof (RFC.dom4 ++ sig.take 57 ++ A' ++ m) i = xof' (RFC.dom4 ++ sig.take 57 ++ A' ++ m) i) →
      ed448_verify xof pk sig m = ed448_verify xof' pk sig m := by
  by_cases hl : pk.length = 57
  swap
  · refine ⟨List.replicate 57 0, by simp, fun h => absurd h.1 hl, fun h => absurd h.1 hl, fun xof xof' sig m _ => ?_⟩
    unfold ed448_verify dsa_verify
    simp only [decode_length hl, bind_ok]
  rcases decode_cases hl with ⟨ha, p, p1, p2, p3⟩ | ⟨ha, hd⟩
  swap
  · refine ⟨List.replicate 57 0, by simp, fun h => absurd h ha, fun h => absurd h ha, fun xof xof' sig m _ => ?_⟩
    unfold ed448_verify dsa_verify
    simp only [hd, bind_ok]
  have hdec : ∀ A, Decodes pk A → p.eddsa_like_encode.1 = encodePoint ((q + 1) • A) := by
    intro A hA
    rw [encode_rep (p3 A hA).rep, quarter_four]
  refine ⟨p.eddsa_like_encode.1, p.eddsa_like_encode.2, fun _ => hdec, ?_, ?_⟩
  · rintro _ n rfl
    rw [hdec _ (decodes_encode _), cleared_smul_B]
  · intro xof xof' sig m h
    have hv : ∀ p2 r sig1 sig2, sliceArr sig 0 57 = .ok sig1 → verifyPoints xof p p2 r sig1 sig2 m = verifyPoints xof' p p2 r sig1 sig2 m := by
      intro p2 r sig1 sig2 hs
      have e : sig1.1 = sig.take 57 := by
        unfold sliceArr at hs
        split at hs
        · injection hs with hs
          rw [← hs]
          rfl
        · cases hs
      have e2 : hash_with_dom xof (sig1.1 ++ p.eddsa_like_encode.1 ++ m) 114 = hash_with_dom xof' (sig1.1 ++ p.eddsa_like_encode.1 ++ m) 114 := by
        refine Subtype.ext ?_
        rw [hash_with_dom_eq, hash_with_dom_eq]
        refine hash_congr (fun i => ?_) _
        have := h i
        rw [← e] at this
        rwa [← List.append_assoc, ← List.append_assoc]
      unfold verifyPoints
      rw [e2]
    obtain ⟨P2, hP, _⟩ := point_scalar_mul_red p2 SCALAR_FOUR
    have hstart : ∀ xof : Xof, dsa_verify xof pk sig m = (do
      let sig1 ← sliceArr sig 0 57
      let sig2 ← sliceArr sig 57 57
      match ← eddsa_like_decode sig1.1 with
      | .error .InvalidLengthError => pure (.error .InvalidSignatureLengthError)
      | .error .DecodeError => pure (.error .DecodeSignatureError)
      | .error _ => .error .explicit
      | .ok r_point =>
        let r ← verifyPoints xof p P2 r_point sig1 sig2 m
        pure (.ok (r.1.mod_equal r.2))) := by
      intro xof
      unfold dsa_verify
      rw [p1, bind_ok]
      dsimp only
      rw [hP, bind_ok]
      rfl
    have hd : dsa_verify xof pk sig m = dsa_verify xof' pk sig m := by
      rw [hstart xof, hstart xof']
      by_cases hl2 : 57 ≤ sig.length
      swap
      · have hs := sliceArr_err (l := sig) (lo := 0) (n := 57) (by omega) (by norm_num)
        rw [hs, bind_err, bind_err]
      · obtain ⟨sig1, hs, _⟩ := sliceArr_ok (l := sig) (lo := 0) (n := 57) (by omega)
        rw [hs, bind_ok, bind_ok]
        refine congrArg _ (funext fun sig2 => congrArg _ (funext fun d => ?_))
        rcases d with e | r
        · cases e <;> rfl
        · dsimp only
          rw [hv _ _ sig1 _ hs]
    rw [ed448_verify, ed448_verify, hd]

example : Accepted (encodePoint B) ∧ encodePoint B = encodePoint (1 • B) := ⟨Witness.B_accepted, by rw [one_smul]⟩

/-- C49. The functions that hash the private key whatever its top bit is: the public key and the signature are those of RFC 8032, for all keys. -/
theorem C49_by_private (xof : Xof) (k : Arr Byte 57) (m : List Byte) :
    (∃ A, private_to_public xof k = .ok A ∧ A.1 = RFC.publicKey xof k.1) ∧
    (∃ sig, sign_by_private xof k m = .ok sig ∧ sig.1 = RFC.sign xof k.1 m) :=
  ⟨private_to_public_spec xof k, sign_by_private_spec xof k m⟩

/-- C50. The functions that take a secret as it is: the bytes are clamped, whatever the bits of the last byte are, and the second argument of the signing function is the seed of the
nonce. -/
theorem C50_with_secret (xof : Xof) (secret n : Arr Byte 57) (m : List Byte) :
    (∃ A, secret_to_public secret = .ok A ∧ A.1 = encodePoint (RFC.secretScalar secret.1 • B)) ∧
    (∃ sig, sign_with_secret_and_nonce xof secret n m = .ok sig ∧ sig.1 = RFC.signWith xof (RFC.secretScalar secret.1) n.1 m) :=
  ⟨secret_to_public_spec secret, sign_with_secret_spec xof secret n m⟩

/-- Signing with the secret of a private key and the second half of its hash is signing with the private key. -/
theorem C50_consistent (xof : Xof) (k n : Arr Byte 57) (m : List Byte) (h : signBit k.1 = 0) (hn : n.1 = (RFC.hash xof k.1 114).drop 57) :
    sign_with_secret_and_nonce xof (private_to_secret xof k) n m = ed448_sign xof k m := by
  obtain ⟨s, s1, s2⟩ := sign_with_secret_spec xof (private_to_secret xof k) n m
  obtain ⟨t, t1, t2⟩ := C02_sign_rfc xof k m h
  rw [s1, t1]
  refine congrArg Except.ok (Subtype.ext ?_)
  rw [s2, t2, private_to_secret_scalar, hn, RFC.sign]

example (xof : Xof) : signBit Witness.rfcKey.1 = 0 ∧ ∃ n : Arr Byte 57, n.1 = (RFC.hash xof Witness.rfcKey.1 114).drop 57 :=
  ⟨Witness.rfcKey_sign, ⟨(RFC.hash xof Witness.rfcKey.1 114).drop 57, by rw [List.length_drop, hash_length]⟩, rfl⟩

end Ed448
