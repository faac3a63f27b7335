import Verif.Properties.Witness

/-!
# Deriving public keys and signing: C01 to C04, C16 to C19, C28, C29, C47, C48
-/

set_option exponentiation.threshold 1000

namespace Ed448

theorem byte_top : ∀ n : Fin 256, (((BitVec.ofFin n : Byte) &&& @OfNat.ofNat (BitVec 8) 0x80 BitVec.instOfNat) == 0) = decide (n.val / 128 = 0) := by
  decide +kernel

theorem topBitClear_eq (k : Arr Byte 57) : topBitClear k = decide (signBit k.1 = 0) := by
  have h : k.1.getD 56 0 = k.1[56]'(by simp [k.2]) := by
    rw [List.getD_eq_getElem?_getD, List.getElem?_eq_getElem (by simp [k.2])]; rfl
  rw [topBitClear, signBit, h]
  exact byte_top (k.1[56]'(by simp [k.2])).toFin

/-- C01. The public key of an ordinary private key (top bit clear) is the one of RFC 8032. -/
theorem C01_derive_rfc (xof : Xof) (k : Arr Byte 57) (h : signBit k.1 = 0) :
    ∃ A, ed448_derive_public xof k = .ok A ∧ A.1 = RFC.publicKey xof k.1 := by
  rw [ed448_derive_public, topBitClear_eq, h]
  exact private_to_public_spec xof k

example : signBit Witness.rfcKey.1 = 0 := Witness.rfcKey_sign

/-- C02. The signature under an ordinary private key is the one of RFC 8032. -/
theorem C02_sign_rfc (xof : Xof) (k : Arr Byte 57) (m : List Byte) (h : signBit k.1 = 0) :
    ∃ sig, ed448_sign xof k m = .ok sig ∧ sig.1 = RFC.sign xof k.1 m := by
  rw [ed448_sign, topBitClear_eq, h]
  exact sign_by_private_spec xof k m

example : signBit Witness.rfcKey.1 = 0 ∧ RFC.sign Witness.lenXof Witness.rfcKey.1 [1, 2, 3] ≠ RFC.sign Witness.lenXof Witness.rfcKey.1 [1, 2] := by
  refine ⟨Witness.rfcKey_sign, fun h => ?_⟩
  have h1 := congrArg (List.take 57) h
  rw [RFC.sign, RFC.sign, RFC.signWith, RFC.signWith, List.take_left' (encodePoint_length _), List.take_left' (encodePoint_length _),
    encodePoint_inj, smul_B_inj, q_def] at h1
  revert h1
  decide +kernel

/-- C03. The public key of a direct-secret key (top bit set): no hashing. -/
theorem C03_derive_direct (xof : Xof) (k : Arr Byte 57) (h : signBit k.1 = 1) :
    ∃ A, ed448_derive_public xof k = .ok A ∧ A.1 = encodePoint (RFC.secretScalar k.1 • B) := by
  rw [ed448_derive_public, topBitClear_eq, h]
  exact secret_to_public_spec k

/-- The public key of the key with 56 zero bytes and 0x80 is the encoding of `2^447 B`. -/
example (xof : Xof) : ∃ A, ed448_derive_public xof Witness.key0 = .ok A ∧ A.1 = leBytes 57 Witness.k0y := by
  obtain ⟨A, h1, h2⟩ := C03_derive_direct xof Witness.key0 Witness.key0_sign
  exact ⟨A, h1, h2.trans Witness.key0_public⟩

/-- The bytes of a clamped key. -/
theorem clamped_bytes {l : List Byte} (h : l.length = 57) : clampList l = leBytes 57 (RFC.secretScalar l) := by
  rw [← clamp_val h]
  have := leBytes_leNat (clampList l)
  rw [clampList_length, h] at this
  exact this.symm

/-- C04. The signature under a direct-secret key: the secret scalar is the clamped key, and its bytes are the seed of the nonce. -/
theorem C04_sign_direct (xof : Xof) (k : Arr Byte 57) (m : List Byte) (h : signBit k.1 = 1) :
    ∃ sig, ed448_sign xof k m = .ok sig ∧
      sig.1 = RFC.signWith xof (RFC.secretScalar k.1) (leBytes 57 (RFC.secretScalar k.1)) m := by
  obtain ⟨sig, h1, h2⟩ := sign_with_secret_spec xof (clamp k) (clamp k) m
  refine ⟨sig, ?_, ?_⟩
  · rw [ed448_sign, topBitClear_eq, h]
    exact h1
  · rw [h2, show (clamp k).1 = clampList k.1 from rfl, secretScalar_clamp k.2, clamped_bytes k.2]

example (m : List Byte) : ∃ sig, ed448_sign Witness.oneXof Witness.key0 m = .ok sig ∧
    sig.1 = encodePoint B ++ leBytes 57 ((1 + 1 * 2 ^ 447) % q) := by
  obtain ⟨sig, h1, h2⟩ := C04_sign_direct Witness.oneXof Witness.key0 m Witness.key0_sign
  refine ⟨sig, h1, h2.trans ?_⟩
  have e : ∀ s, leNat (RFC.hash Witness.oneXof s 114) = 1 := fun s => by
    rw [show RFC.hash Witness.oneXof s 114 = RFC.hash Witness.oneXof [] 114 from rfl]
    decide +kernel
  simp only [RFC.signWith, RFC.nonce, RFC.challenge, e, one_smul, Witness.key0_scalar]

/-- The secret scalar of a key of either kind. -/
def keyScalar (shake : List (BitVec 8) → ℕ → BitVec 8) (k : List (BitVec 8)) : ℕ :=
  if signBit k = 0 then RFC.secretScalar ((RFC.hash shake k 114).take 57) else RFC.secretScalar k

/-- The seed of the nonce for a key of either kind. -/
def keySeed (shake : List (BitVec 8) → ℕ → BitVec 8) (k : List (BitVec 8)) : List (BitVec 8) :=
  if signBit k = 0 then (RFC.hash shake k 114).drop 57 else leBytes 57 (RFC.secretScalar k)

theorem derive_spec (xof : Xof) (k : Arr Byte 57) :
    ∃ A, ed448_derive_public xof k = .ok A ∧ A.1 = encodePoint (keyScalar xof k.1 • B) := by
  by_cases h : signBit k.1 = 0
  · obtain ⟨A, h1, h2⟩ := C01_derive_rfc xof k h
    exact ⟨A, h1, by rw [h2, keyScalar, if_pos h, RFC.publicKey, RFC.publicOf]⟩
  · obtain ⟨A, h1, h2⟩ := C03_derive_direct xof k (by have := signBit_lt k.1; omega)
    exact ⟨A, h1, by rw [h2, keyScalar, if_neg h]⟩

theorem sign_spec (xof : Xof) (k : Arr Byte 57) (m : List Byte) :
    ∃ sig, ed448_sign xof k m = .ok sig ∧ sig.1 = RFC.signWith xof (keyScalar xof k.1) (keySeed xof k.1) m := by
  by_cases h : signBit k.1 = 0
  · obtain ⟨A, h1, h2⟩ := C02_sign_rfc xof k m h
    exact ⟨A, h1, by rw [h2, keyScalar, keySeed, if_pos h, if_pos h, RFC.sign]⟩
  · obtain ⟨A, h1, h2⟩ := C04_sign_direct xof k m (by have := signBit_lt k.1; omega)
    exact ⟨A, h1, by rw [h2, keyScalar, keySeed, if_neg h, if_neg h]⟩

/-- C29. Deriving and signing never panic. -/
theorem C29_no_panic (xof : Xof) (k : Arr Byte 57) (m : List Byte) :
    (∃ A, ed448_derive_public xof k = .ok A) ∧ (∃ sig, ed448_sign xof k m = .ok sig) := by
  obtain ⟨A, h1, _⟩ := derive_spec xof k
  obtain ⟨sig, h2, _⟩ := sign_spec xof k m
  exact ⟨⟨A, h1⟩, ⟨sig, h2⟩⟩

/-- C16. A public key is the canonical encoding of a point of the curve: y in the first 56 bytes, less than p, the low bits of the last
byte zero, and the parity of x in its top bit. -/
theorem C16_public_canonical (xof : Xof) (k A : Arr Byte 57) (h : ed448_derive_public xof k = .ok A) :
    ∃ x y : F, x ^ 2 + y ^ 2 = 1 + edD * x ^ 2 * y ^ 2 ∧ yNat A.1 = y.val ∧ y.val < p ∧ padBits A.1 = 0 ∧ signBit A.1 = x.val % 2 := by
  obtain ⟨A', h1, h2⟩ := derive_spec xof k
  rw [h] at h1
  injection h1 with h1
  subst h1
  rw [h2]
  refine ⟨(keyScalar xof k.1 • B).x, (keyScalar xof k.1 • B).y, (keyScalar xof k.1 • B).on, yNat_encode _, ZMod.val_lt _,
    padBits_encode _, signBit_encode _⟩

example (xof : Xof) : ∃ A, ed448_derive_public xof Witness.rfcKey = .ok A := (C29_no_panic xof _ []).1

theorem signWith_length (xof : Xof) (s : ℕ) (pre m : List Byte) : (RFC.signWith xof s pre m).length = 114 := by
  simp [RFC.signWith, encodePoint_length]

/-- C17. The first half of a signature is the canonical encoding of a point, the second half is a number less than q in little-endian
order, so the last byte is zero. -/
theorem C17_signature_canonical (xof : Xof) (k : Arr Byte 57) (m : List Byte) (sig : Arr Byte 114) (h : ed448_sign xof k m = .ok sig) :
    (∃ R : E, sig.1.take 57 = encodePoint R) ∧ leNat (sig.1.drop 57) < q ∧ sig.1.getD 113 0 = 0 := by
  obtain ⟨A', h1, h2⟩ := sign_spec xof k m
  rw [h] at h1
  injection h1 with h1
  subst h1
  have hd : sig.1.drop 57 = leBytes 57 (leNat (sig.1.drop 57)) ∧ leNat (sig.1.drop 57) < q := by
    rw [h2, RFC.signWith, List.drop_left' (encodePoint_length _), leNat_leBytes]
    have hlt : ∀ n, n % q < 256 ^ 57 := fun n => by
      have := Nat.mod_lt n q_pos
      have := q_lt
      omega
    rw [Nat.mod_eq_of_lt (hlt _)]
    exact ⟨rfl, Nat.mod_lt _ q_pos⟩
  refine ⟨⟨RFC.nonce xof (keySeed xof k.1) m • B, ?_⟩, hd.2, ?_⟩
  · rw [h2, RFC.signWith, List.take_left' (encodePoint_length _)]
  · have e : sig.1.getD 113 0 = (sig.1.drop 57).getD 56 0 := by
      rw [List.getD_eq_getElem?_getD, List.getD_eq_getElem?_getD, List.getElem?_drop]
    rw [e, hd.1]
    generalize leNat (sig.1.drop 57) = n at hd
    have hq := q_lt
    have hl : leBytes 57 n = leBytes 56 n ++ leBytes 1 (n / 256 ^ 56) := leBytes_append 56 1 n
    rw [hl, Nat.div_eq_of_lt (by omega), List.getD_eq_getElem?_getD, List.getElem?_append_right (by simp), leBytes_length]
    rfl

example (xof : Xof) (m : List Byte) : ∃ sig, ed448_sign xof Witness.rfcKey m = .ok sig := (C29_no_panic xof _ m).2

/-- C18. The expanded secret has its top bit set, and for ordinary keys it has the same public key. -/
theorem C18_private_to_secret (xof : Xof) (k : Arr Byte 57) :
    signBit (private_to_secret xof k).1 = 1 ∧
      (signBit k.1 = 0 → ed448_derive_public xof (private_to_secret xof k) = ed448_derive_public xof k) := by
  have hs : signBit (private_to_secret xof k).1 = 1 := by
    unfold private_to_secret signBit
    dsimp only
    rw [List.getD_eq_getElem?_getD, List.getElem?_set_self (by simp [(sha3 xof k.1 57).2]), Option.getD_some]
    generalize (sha3 xof k.1 57).1.getD 56 0 = b
    have := (clamp_bytes b.toFin).2
    have e : (b ||| 0x80#8).toNat = b.toNat % 128 + 128 := this
    have hb := b.isLt
    rw [show (b ||| 128).toNat = (b ||| 0x80#8).toNat from rfl, e]
    omega
  refine ⟨hs, fun h => ?_⟩
  obtain ⟨A, h1, h2⟩ := C03_derive_direct xof _ hs
  obtain ⟨A', h3, h4⟩ := C01_derive_rfc xof k h
  rw [h1, h3]
  congr 1
  apply Subtype.ext
  rw [h2, h4, private_to_secret_scalar, RFC.publicKey, RFC.publicOf]

example : signBit Witness.rfcKey.1 = 0 := Witness.rfcKey_sign

/-- Two keys agree outside of bits 0 and 1 of byte 0, bit 7 of byte 55 and byte 56. -/
def SameUpToClamp (k k' : List (BitVec 8)) : Prop :=
  (k.getD 0 0).toNat / 4 = (k'.getD 0 0).toNat / 4 ∧ (∀ i, 1 ≤ i → i < 55 → k.getD i 0 = k'.getD i 0) ∧
    (k.getD 55 0).toNat % 128 = (k'.getD 55 0).toNat % 128

theorem sameUpToClamp_scalar {k k' : Arr Byte 57} (h : SameUpToClamp k.1 k'.1) : RFC.secretScalar k.1 = RFC.secretScalar k'.1 := by
  obtain ⟨k, hk⟩ := k
  obtain ⟨k', hk'⟩ := k'
  obtain ⟨x, m, y, z, rfl, hm⟩ := split57 hk
  obtain ⟨x', m', y', z', rfl, hm'⟩ := split57 hk'
  obtain ⟨h1, h2, h3⟩ := h
  have e0 : ∀ (x : Byte) (m : List Byte) (y z : Byte), (x :: (m ++ [y, z])).getD 0 0 = x := fun _ _ _ _ => rfl
  have e55 : ∀ (x : Byte) (m : List Byte) (y z : Byte), m.length = 54 → (x :: (m ++ [y, z])).getD 55 0 = y := fun x m y z h => by
    rw [List.getD_eq_getElem?_getD, List.getElem?_cons_succ, List.getElem?_append_right (by omega), h]
    rfl
  have hmm : m = m' := by
    apply List.ext_getElem (by omega)
    intro i hi hi'
    have := h2 (i + 1) (by omega) (by omega)
    rw [List.getD_eq_getElem?_getD, List.getD_eq_getElem?_getD, List.getElem?_cons_succ, List.getElem?_cons_succ,
      List.getElem?_append_left hi, List.getElem?_append_left hi', List.getElem?_eq_getElem hi, List.getElem?_eq_getElem hi'] at this
    exact this
  subst hmm
  rw [e0, e0] at h1
  rw [e55 _ _ _ _ hm, e55 _ _ _ _ hm] at h3
  dsimp only
  rw [← clamp_val hk, ← clamp_val hk', clamp_split x m y z hm, clamp_split x' m y' z' hm]
  have a := (clamp_bytes x.toFin).1
  have a' := (clamp_bytes x'.toFin).1
  have b := (clamp_bytes y.toFin).2
  have b' := (clamp_bytes y'.toFin).2
  have e1 : x &&& 0xfc = x' &&& 0xfc := by
    apply BitVec.eq_of_toNat_eq
    refine a.trans (Eq.trans ?_ a'.symm)
    show x.toNat / 4 * 4 = x'.toNat / 4 * 4
    rw [h1]
  have e2 : y ||| 0x80 = y' ||| 0x80 := by
    apply BitVec.eq_of_toNat_eq
    refine b.trans (Eq.trans ?_ b'.symm)
    show y.toNat % 128 + 128 = y'.toNat % 128 + 128
    rw [h3]
  rw [e1, e2]

/-- C19. Bits that clamping overwrites do not matter for direct-secret keys. -/
theorem C19_clamped_bits (xof : Xof) (k k' : Arr Byte 57) (m : List Byte) (h : signBit k.1 = 1) (h' : signBit k'.1 = 1)
    (hs : SameUpToClamp k.1 k'.1) :
    ed448_derive_public xof k = ed448_derive_public xof k' ∧ ed448_sign xof k m = ed448_sign xof k' m := by
  have e := sameUpToClamp_scalar hs
  obtain ⟨A, a1, a2⟩ := C03_derive_direct xof k h
  obtain ⟨A', a3, a4⟩ := C03_derive_direct xof k' h'
  obtain ⟨S, s1, s2⟩ := C04_sign_direct xof k m h
  obtain ⟨S', s3, s4⟩ := C04_sign_direct xof k' m h'
  rw [a1, a3, s1, s3]
  exact ⟨congrArg _ (Subtype.ext (by rw [a2, a4, e])), congrArg _ (Subtype.ext (by rw [s2, s4, e]))⟩

/-- A different key that agrees with `key0` outside of these bits. -/
def Witness.key0' : Arr Byte 57 := ⟨3 :: (List.replicate 54 0 ++ [0x80, 0xff]), by simp⟩

example : signBit Witness.key0.1 = 1 ∧ signBit Witness.key0'.1 = 1 ∧ Witness.key0 ≠ Witness.key0' ∧
    SameUpToClamp Witness.key0.1 Witness.key0'.1 := by
  refine ⟨by decide +kernel, by decide +kernel, by decide +kernel, by decide +kernel, ?_, by decide +kernel⟩
  have h : ∀ i : Fin 55, 1 ≤ i.val → Witness.key0.1.getD i.val 0 = Witness.key0'.1.getD i.val 0 := by decide +kernel
  exact fun i h1 h2 => h ⟨i, h2⟩ h1

/-- The secret scalars are multiples of 4 in [2^447, 2^448). -/
theorem secretScalar_range (l : List Byte) : 2 ^ 447 ≤ RFC.secretScalar l ∧ RFC.secretScalar l < 2 ^ 448 ∧ RFC.secretScalar l % 4 = 0 := by
  rw [RFC.secretScalar]
  have := Nat.mod_lt (leNat l) (show 0 < 2 ^ 447 by norm_num)
  omega

/-- Two secret scalars that agree modulo q are equal. -/
theorem secretScalar_inj {l l' : List Byte} (h : RFC.secretScalar l % q = RFC.secretScalar l' % q) : RFC.secretScalar l = RFC.secretScalar l' := by
  have h1 := secretScalar_range l
  have h2 := secretScalar_range l'
  have hq4 : q % 4 = 3 := q_mod_four
  have hq : 2 ^ 447 < 4 * q := by rw [q_def]; decide +kernel
  generalize RFC.secretScalar l = a at *
  generalize RFC.secretScalar l' = b at *
  wlog hab : b ≤ a generalizing a b
  · exact (this b h2 a h1 h.symm (by omega)).symm
  have hd : q ∣ a - b := by
    have : b ≡ a [MOD q] := h.symm
    exact (Nat.modEq_iff_dvd' hab).mp this
  have h4d : 4 ∣ a - b := by omega
  have hc : Nat.Coprime 4 q := by
    have : Nat.gcd 4 q = Nat.gcd 3 4 := by rw [Nat.gcd_rec, hq4]
    rw [Nat.Coprime, this]
    rfl
  have := hc.mul_dvd_of_dvd_of_dvd h4d hd
  rcases Nat.eq_zero_or_pos (a - b) with h0 | h0
  · omega
  · have := Nat.le_of_dvd h0 this
    omega

/-- C47. Two direct-secret keys have the same public key only if their secret scalars are equal: outside of the clamped bits no two
direct-secret keys collide. -/
theorem C47_direct_injective (xof : Xof) (k k' : Arr Byte 57) (h : signBit k.1 = 1) (h' : signBit k'.1 = 1) :
    ed448_derive_public xof k = ed448_derive_public xof k' ↔ RFC.secretScalar k.1 = RFC.secretScalar k'.1 := by
  obtain ⟨A, a1, a2⟩ := C03_derive_direct xof k h
  obtain ⟨A', a3, a4⟩ := C03_derive_direct xof k' h'
  rw [a1, a3]
  constructor
  · intro e
    injection e with e
    have e2 := congrArg Subtype.val e
    rw [a2, a4, encodePoint_inj, smul_B_inj] at e2
    exact secretScalar_inj e2
  · intro e
    exact congrArg _ (Subtype.ext (by rw [a2, a4, e]))

example : signBit Witness.key0.1 = 1 ∧ signBit Witness.badKey.1 = 1 ∧ RFC.secretScalar Witness.key0.1 ≠ RFC.secretScalar Witness.badKey.1 := by
  rw [Witness.key0_scalar, Witness.badKey_scalar]
  exact ⟨Witness.key0_sign, Witness.badKey_sign, by decide +kernel⟩

/-- The direct-secret key with the secret scalar 4q. -/
def Witness.neutralKey : Arr Byte 57 := ⟨leBytes 57 (4 * qN + 2 ^ 455), by simp⟩

/-- C48. The public key of a direct-secret key has order q, with one exception: it is the neutral element exactly if the secret scalar is
4q, and there is a key with this scalar. -/
theorem C48_neutral_key (xof : Xof) (k : Arr Byte 57) (h : signBit k.1 = 1) :
    (ed448_derive_public xof k = .ok ⟨1 :: List.replicate 56 0, by simp⟩ ↔ RFC.secretScalar k.1 = 4 * q) ∧
      signBit Witness.neutralKey.1 = 1 ∧ RFC.secretScalar Witness.neutralKey.1 = 4 * q := by
  have hn : RFC.secretScalar Witness.neutralKey.1 = 4 * q := by
    rw [← qN_eq]
    decide +kernel
  refine ⟨?_, by decide +kernel, hn⟩
  obtain ⟨A, a1, a2⟩ := C03_derive_direct xof k h
  rw [a1]
  constructor
  · intro e
    injection e with e
    have e2 := congrArg Subtype.val e
    rw [a2] at e2
    dsimp only at e2
    rw [← Witness.zero_encode, encodePoint_inj, ← zero_smul ℕ B, smul_B_inj, Nat.zero_mod] at e2
    rw [← hn]
    apply secretScalar_inj
    rw [hn, e2, Nat.mul_mod_left]
  · intro e
    refine congrArg _ (Subtype.ext ?_)
    rw [a2, e, mul_smul, q_smul_B, smul_zero, Witness.zero_encode]

example : signBit Witness.neutralKey.1 = 1 ∧ signBit Witness.key0.1 = 1 := by decide +kernel

end Ed448
