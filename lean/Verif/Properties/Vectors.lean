import Verif.Algo.Sign
import Verif.Properties.Interop

/-!
# Verification on field elements, and complete runs with SHAKE256: C62

The model run on the test vectors of /repo/src/goldilocks.rs, /repo/src/eddsa.rs and RFC 8032, section 7.4, with SHAKE256 for the hash.
Each run is evaluated by the kernel, on numbers modulo p instead of limbs; the theorems of this development carry the result to the model.
-/

namespace Ed448

open Alg Shake

/-! ### C62 -/

/-- C62. Verification on limbs gives the answer of the same algorithm on elements of the field, for every key, signature and message,
also where the strings encode no point of the curve. -/
theorem C62_field_verify (xof : Xof) (pk sig m : List Byte) (h : ¬ ZeroInput pk sig) :
    ed448_verify xof pk sig m = Alg.verify F xof pk sig m := by
  rw [verify_nonzero h, dsa_verify_eq homF]

/-- C62, in a form that can be evaluated. -/
theorem C62_evaluate (xof : Xof) (pk sig m : List Byte) (h : ¬ ZeroInput pk sig) :
    ed448_verify xof pk sig m = Alg.verify Zp xof pk sig m := by
  rw [verify_nonzero h, dsa_verify_eq homZ]

/-! ### Test vectors -/

namespace Vectors

/-- The `n` bytes written as a hexadecimal number, first byte first. -/
def hex (n v : ℕ) : List Byte := (leBytes n v).reverse

theorem hex_length (n v : ℕ) : (hex n v).length = n := by
  rw [hex, List.length_reverse, leBytes_length]

/-- A key written as a hexadecimal number. -/
def key (v : ℕ) : Arr Byte 57 := ⟨hex 57 v, hex_length 57 v⟩

/-- A signature written as a hexadecimal number. -/
def signature (v : ℕ) : Arr Byte 114 := ⟨hex 114 v, hex_length 114 v⟩

/-- "The quick brown fox jumps over the lazy dog". -/
def fox : List Byte := hex 43 0x54686520717569636b2062726f776e20666f78206a756d7073206f76657220746865206c617a7920646f67

/-- Boolean form of an answer. -/
def answers (r : Rust (Except Err Bool)) (b : Bool) : Bool :=
  match r with
  | .ok (.ok c) => c == b
  | _ => false

theorem answers_iff {r : Rust (Except Err Bool)} {b : Bool} (h : answers r b = true) : r = .ok (.ok b) := by
  match r, h with
  | .ok (.ok c), h => rw [eq_of_beq h]

instance (pk sig : List Byte) : Decidable (ZeroInput pk sig) := inferInstanceAs (Decidable (_ ∨ _))

/-- Boolean equality of lists of bytes. -/
def sameBytes (a b : List Byte) : Bool := Nat.beq (leNat a) (leNat b) && Nat.beq a.length b.length

theorem sameBytes_iff {a b : List Byte} (h : sameBytes a b = true) : a = b := by
  rw [sameBytes, Bool.and_eq_true, Nat.beq_eq, Nat.beq_eq] at h
  exact leNat_inj h.2 h.1

theorem ok_of {n : ℕ} {r : Rust (Arr Byte n)} {l : List Byte} (hl : l.length = n) (h : ∃ A, r = .ok A ∧ A.1 = l) : r = .ok ⟨l, hl⟩ := by
  obtain ⟨A, h1, rfl⟩ := h
  exact h1

theorem derive {k A : ℕ} (h0 : signBit (hex 57 k) = 0) (h : sameBytes (Alg.publicKey shake256 (hex 57 k)) (hex 57 A) = true) :
    ed448_derive_public shake256 (key k) = .ok (key A) := by
  have h1 := C01_derive_rfc shake256 (key k) h0
  have h2 := sameBytes_iff h
  rw [publicKey_eq] at h2
  rw [key, h2] at h1
  exact ok_of _ h1

theorem derive_direct {k A : ℕ} (h0 : signBit (hex 57 k) = 1) (h : sameBytes (Alg.publicOf (RFC.secretScalar (hex 57 k))) (hex 57 A) = true) :
    ed448_derive_public shake256 (key k) = .ok (key A) := by
  have h1 := C03_derive_direct shake256 (key k) h0
  have h2 := sameBytes_iff h
  rw [publicOf_eq, RFC.publicOf] at h2
  rw [key, h2] at h1
  exact ok_of _ h1

theorem signs {k s : ℕ} {m : List Byte} (h0 : signBit (hex 57 k) = 0) (h : sameBytes (Alg.sign shake256 (hex 57 k) m) (hex 114 s) = true) :
    ed448_sign shake256 (key k) m = .ok (signature s) := by
  have h1 := C02_sign_rfc shake256 (key k) m h0
  have h2 := sameBytes_iff h
  rw [sign_eq] at h2
  rw [key, h2] at h1
  exact ok_of _ h1

theorem signs_direct {k s : ℕ} {m : List Byte} (h0 : signBit (hex 57 k) = 1)
    (h : sameBytes (Alg.signWith shake256 (RFC.secretScalar (hex 57 k)) (leBytes 57 (RFC.secretScalar (hex 57 k))) m) (hex 114 s) = true) :
    ed448_sign shake256 (key k) m = .ok (signature s) := by
  have h1 := C04_sign_direct shake256 (key k) m h0
  have h2 := sameBytes_iff h
  rw [signWith_eq] at h2
  rw [key, h2] at h1
  exact ok_of _ h1

theorem verifies {pk sig : List Byte} {m : List Byte} {b : Bool} (h0 : ¬ ZeroInput pk sig) (h : answers (Alg.verify Zp shake256 pk sig m) b = true) :
    ed448_verify shake256 pk sig m = .ok (.ok b) := by
  rw [C62_evaluate _ _ _ _ h0]
  exact answers_iff h

/-- RFC 8032, section 7.4, "Blank": the public key. -/
theorem rfc_blank_public : ed448_derive_public shake256
    (key 0x6c82a562cb808d10d632be89c8513ebf6c929f34ddfa8c9f63c9960ef6e348a3528c8a3fcc2f044e39a3fc5b94492f8f032e7549a20098f95b) =
    .ok (key 0x5fd7449b59b461fd2ce787ec616ad46a1da1342485a70e1f8a0ea75d80e96778edf124769b46c7061bd6783df1e50f6cd1fa1abeafe8256180) :=
  derive (by decide +kernel) (by decide +kernel)

/-- RFC 8032, section 7.4, "Blank": the signature of the empty message. -/
theorem rfc_blank_signature : ed448_sign shake256
    (key 0x6c82a562cb808d10d632be89c8513ebf6c929f34ddfa8c9f63c9960ef6e348a3528c8a3fcc2f044e39a3fc5b94492f8f032e7549a20098f95b) [] =
    .ok (signature 0x533a37f6bbe457251f023c0d88f976ae2dfb504a843e34d2074fd823d41a591f2b233f034f628281f2fd7a22ddd47d7828c59bd0a21bfd3980ff0d2028d4b18a9df63e006c5d1c2d345b925d8dc00b4104852db99ac5c7cdda8530a113a0f4dbb61149f05a7363268c71d95808ff2e652600) :=
  signs (by decide +kernel) (by decide +kernel)

/-- RFC 8032, section 7.4, "Blank": the signature verifies. -/
theorem rfc_blank_verifies : ed448_verify shake256
    (hex 57 0x5fd7449b59b461fd2ce787ec616ad46a1da1342485a70e1f8a0ea75d80e96778edf124769b46c7061bd6783df1e50f6cd1fa1abeafe8256180)
    (hex 114 0x533a37f6bbe457251f023c0d88f976ae2dfb504a843e34d2074fd823d41a591f2b233f034f628281f2fd7a22ddd47d7828c59bd0a21bfd3980ff0d2028d4b18a9df63e006c5d1c2d345b925d8dc00b4104852db99ac5c7cdda8530a113a0f4dbb61149f05a7363268c71d95808ff2e652600)
    [] = .ok (.ok true) :=
  verifies (by decide +kernel) (by decide +kernel)

/-- /repo/src/goldilocks.rs, `test_ed448_derive_public`, an ordinary private key. -/
theorem test_derive_public_private : ed448_derive_public shake256
    (key 0x582f73eb3d951ef93a8c392c7b113ad85c0f60a744c95c47370d4d593593edc0d745eb24fa2130f51fd5b1e6b2363a5405bf1e074ecbf4382d) =
    .ok (key 0x4e6ef3aa2a74ce85c9c75de379c72abbce30601db4f66af1535d00190fa5de83af3831fa32e37c59e14a25788e56140896fb59b494e4fdca80) :=
  derive (by decide +kernel) (by decide +kernel)

/-- /repo/src/goldilocks.rs, `test_ed448_derive_public`, a direct secret. -/
theorem test_derive_public_secret : ed448_derive_public shake256
    (key 0x59fc82f514f3fc8d02d987e52a03cdcae81a257bed6ec9b668bf6acd8fe9e7d27cbcc4d8f463d917642d30e7ca44c3521370f78790b3b561dd) =
    .ok (key 0x3cba3b2560c2779170ce5947f55bf73b93a1dd51d99b0b483ed0cfb5a9bb8409830c0f96068c799dbc6a28ca6bc1aad95d0387c36a731d7800) :=
  derive_direct (by decide +kernel) (by decide +kernel)

/-- /repo/src/goldilocks.rs, `test_ed448_sign`, an ordinary private key. -/
theorem test_sign_private : ed448_sign shake256
    (key 0xe959068474bc720bf3a94c7a524750f0d4fe68a4828137e58d48303af1fa929a6c50f87d0cab27fc557aa1a3190cfad0abbca2a2e5d7da272d) fox =
    .ok (signature 0x92a7e08f86b25f288eb0308f3fb780950ab77c333d5d1b91b6de40a199fc028fe66a001dc09341905a58f8c3d4a959ee5d416735f59d91640095dd83e70b6bc05fa6a26b32c00be454bfb87285417554183c2da64bbbad77b746bd86299fd4188578bc9aa321a8291c5d2281029ca24e2d00) :=
  signs (by decide +kernel) (by decide +kernel)

/-- /repo/src/goldilocks.rs, `test_ed448_sign`, a direct secret. -/
theorem test_sign_secret : ed448_sign shake256
    (key 0x1edc2069350104b5594c602f7967c4b1580f2a757fc9a2745f621868cd333c245ec3c775d730d3c01a2e18f3e5d0b5e767ed3ec77e69732781) fox =
    .ok (signature 0x789dd9e1a4471c30cfef1da68076542e6918676424593936dbeb282f5929dcfa3437aef85fd890999ea7a1b16a2c8c3a8cf330c58768789b006b183034ec43acab783039d53fe46f6c39ab29f988a43371d07fe7746a2fd45c660f2a8c441446b8f1cdbfc0787e4cfe69280e5cd7b92d0400) :=
  signs_direct (by decide +kernel) (by decide +kernel)

/-- The public key of /repo/src/eddsa.rs, `test_dsa_verify`. -/
def testKey : List Byte := hex 57 0xc3c19c1a119942fbe298f5df7565cf300365060362ac436f5cb4893adbf2217cab5f134d75f05fd794c0ac9fd10029b4e282edc9b3e4207880

/-- The signature of /repo/src/eddsa.rs, `test_dsa_verify`. -/
def testSig : List Byte :=
  hex 114 0xd3ffe2cffeba84f631c9e4f452c7f27023b48e679f30ad9f43b4ef0483670e25842efdd6a20ad74f2c08351e37857763c0e1b787a7a02c5c00708263b206ab852e865676b3b8ad2c86794cd2831b54064cda39e2703a4c172a1debf051e01ae981c58a577731127f2bfb7aaa3f9242572400

/-- /repo/src/eddsa.rs, `test_dsa_verify`. -/
theorem test_verify : ed448_verify shake256 testKey testSig fox = .ok (.ok true) :=
  verifies (by decide +kernel) (by decide +kernel)

/-- The same signature with another message: `Ok(false)`. -/
theorem test_verify_false : ed448_verify shake256 testKey testSig (fox ++ [0x2e]) = .ok (.ok false) :=
  verifies (by decide +kernel) (by decide +kernel)

/-- /repo/src/goldilocks.rs, `test_sign_with_private`: the key of `test_dsa_verify` is the public key of this private key. -/
theorem test_key : RFC.DecodesTo testKey (RFC.secretScalar ((RFC.hash shake256
    (hex 57 0x64c2754ee8f55f285d1c6efac34345c78da28df5c31d9ae3748417e0754903004eca31389e978df148e3941de8d4c3585b6dd3669903f00bb5) 114).take 57) • B) := by
  rw [decodesTo_iff]
  have h : sameBytes (Alg.publicKey shake256
    (hex 57 0x64c2754ee8f55f285d1c6efac34345c78da28df5c31d9ae3748417e0754903004eca31389e978df148e3941de8d4c3585b6dd3669903f00bb5)) testKey = true := by
    decide +kernel
  have h2 := sameBytes_iff h
  rw [publicKey_eq] at h2
  exact h2.symm

/-- The hypotheses of `C58_false_invalid` are met: this signature is not valid for the other message. -/
example : ¬ RFC.Valid shake256 testKey (fox ++ [0x2e]) testSig := C58_false_invalid _ _ _ _ _ test_key test_verify_false

/-- The private key of `test_sign_with_private`, hashed. -/
def testHash : List Byte :=
  RFC.hash shake256 (hex 57 0x64c2754ee8f55f285d1c6efac34345c78da28df5c31d9ae3748417e0754903004eca31389e978df148e3941de8d4c3585b6dd3669903f00bb5) 114

theorem test_commitment : testSig.take 57 = encodePoint (RFC.nonce shake256 (testHash.drop 57) fox • B) := by
  have h : sameBytes (testSig.take 57) (Alg.forcedBytes testHash fun h => Alg.encodeMul (RFC.nonce shake256 (h.drop 57) fox)) = true := by decide +kernel
  have h2 := sameBytes_iff h
  rw [forcedBytes_eq, encodeMul_eq] at h2
  exact h2

/-- The hypotheses of `C06_reject` are met. -/
example : ∃ A R : E, ¬ RFC.Equation (leNat ((testSig.drop 57).take 57)) R A
    (RFC.challenge shake256 (testSig.take 57) (encodePoint ((q + 1) • A)) (fox ++ [0x2e])) :=
  ⟨_, _, C06_reject _ _ _ _ _ _ test_verify_false (by rw [decodesTo_iff.mp test_key]; exact decodes_encode _)
    (by rw [test_commitment]; exact decodes_encode _)⟩

end Vectors

end Ed448
