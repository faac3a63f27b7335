import Verif.Properties.Vectors

/-!
# Complete runs with SHAKE256: the remaining test vectors of /repo/src/goldilocks.rs
-/

namespace Ed448.Vectors

open Alg Shake

/-- The characters of a string, as bytes. -/
def chars (s : String) : List Byte := s.toList.map fun c => BitVec.ofNat 8 c.toNat

/-- Boolean form of the result of reading a hexadecimal string. -/
def reads {n : ℕ} (r : Rust (Arr Byte n)) (b : List Byte) : Bool :=
  match r with
  | .ok a => sameBytes a.1 b
  | .error _ => false

theorem reads_iff {n : ℕ} {r : Rust (Arr Byte n)} {b : List Byte} (hl : b.length = n) (h : reads r b = true) : r = .ok ⟨b, hl⟩ := by
  match r, h with
  | .ok a, h => exact congrArg Except.ok (Subtype.ext (sameBytes_iff h))

/-- Boolean form of an error. -/
def refuses (r : Rust (Except Err Bool)) (e : Err) : Bool :=
  match r with
  | .ok (.error e') => decide (e' = e)
  | _ => false

theorem refuses_iff {r : Rust (Except Err Bool)} {e : Err} (h : refuses r e = true) : r = .ok (.error e) := by
  match r, h with
  | .ok (.error e'), h => rw [of_decide_eq_true h]

theorem refused {pk sig : List Byte} {m : List Byte} {e : Err} (h0 : ¬ ZeroInput pk sig) (h : refuses (Alg.verify Zp shake256 pk sig m) e = true) :
    ed448_verify shake256 pk sig m = .ok (.error e) := by
  rw [C62_evaluate _ _ _ _ h0]
  exact refuses_iff h

theorem secret_public {k A : ℕ} (h : sameBytes (Alg.publicOf (RFC.secretScalar (hex 57 k))) (hex 57 A) = true) :
    secret_to_public (key k) = .ok (key A) := by
  have h1 := (C50_with_secret shake256 (key k) (key k) []).1
  have h2 := sameBytes_iff h
  rw [publicOf_eq, RFC.publicOf] at h2
  rw [key, h2] at h1
  exact ok_of _ h1

theorem private_public {k A : ℕ} (h : sameBytes (Alg.publicKey shake256 (hex 57 k)) (hex 57 A) = true) :
    private_to_public shake256 (key k) = .ok (key A) := by
  have h1 := private_to_public_spec shake256 (key k)
  have h2 := sameBytes_iff h
  rw [publicKey_eq] at h2
  rw [key, h2] at h1
  exact ok_of _ h1

theorem signs_private {k s : ℕ} {m : List Byte} (h : sameBytes (Alg.sign shake256 (hex 57 k) m) (hex 114 s) = true) :
    sign_by_private shake256 (key k) m = .ok (signature s) := by
  have h1 := sign_by_private_spec shake256 (key k) m
  have h2 := sameBytes_iff h
  rw [sign_eq] at h2
  rw [key, h2] at h1
  exact ok_of _ h1

theorem signs_secret {k n s : ℕ} {m : List Byte}
    (h : sameBytes (Alg.signWith shake256 (RFC.secretScalar (hex 57 k)) (hex 57 n) m) (hex 114 s) = true) :
    sign_with_secret_and_nonce shake256 (key k) (key n) m = .ok (signature s) := by
  have h1 := (C50_with_secret shake256 (key k) (key n) m).2
  have h2 := sameBytes_iff h
  rw [signWith_eq] at h2
  rw [key, key, h2] at h1
  exact ok_of _ h1

/-- /repo/src/goldilocks.rs, `test_decode_hex`. -/
theorem test_decode_hex : hex_to_private_key (chars
    "a8ea212cc24ae0fd029a97b64be540885af0e1b7dc9faf4a591742850c4377f857ae9a8f87df1de98e397a5867dd6f20211ef3f234ae71bc56") =
    .ok (key 0xa8ea212cc24ae0fd029a97b64be540885af0e1b7dc9faf4a591742850c4377f857ae9a8f87df1de98e397a5867dd6f20211ef3f234ae71bc56) :=
  reads_iff _ (by decide +kernel)

/-- The signature of `test_sign_with_private` is read as written. -/
theorem test_decode_signature : hex_to_signature (chars
    "d3ffe2cffeba84f631c9e4f452c7f27023b48e679f30ad9f43b4ef0483670e25842efdd6a20ad74f2c08351e37857763c0e1b787a7a02c5c00708263b206ab852e865676b3b8ad2c86794cd2831b54064cda39e2703a4c172a1debf051e01ae981c58a577731127f2bfb7aaa3f9242572400") =
    .ok (signature 0xd3ffe2cffeba84f631c9e4f452c7f27023b48e679f30ad9f43b4ef0483670e25842efdd6a20ad74f2c08351e37857763c0e1b787a7a02c5c00708263b206ab852e865676b3b8ad2c86794cd2831b54064cda39e2703a4c172a1debf051e01ae981c58a577731127f2bfb7aaa3f9242572400) :=
  reads_iff _ (by decide +kernel)

/-- /repo/src/goldilocks.rs, `test_private_to_secret`. -/
theorem test_private_to_secret : private_to_secret shake256
    (key 0xa8ea212cc24ae0fd029a97b64be540885af0e1b7dc9faf4a591742850c4377f857ae9a8f87df1de98e397a5867dd6f20211ef3f234ae71bc56) =
    key 0x1413821ed67083c855c6db4405dd4fa5fdec39e1c761be1415623c1c202c5cb5176e578830372b7e07eb1ef9cf71b19518815c4da0fd2d3594 :=
  Subtype.ext (sameBytes_iff (by decide +kernel))

/-- /repo/src/goldilocks.rs, `test_secret_to_public`. -/
theorem test_secret_to_public : secret_to_public
    (key 0x1413821ed67083c855c6db4405dd4fa5fdec39e1c761be1415623c1c202c5cb5176e578830372b7e07eb1ef9cf71b19518815c4da0fd2d3594) =
    .ok (key 0xb615e57dd4d15c3ed1323725c0ba8b1d7f6e740d08e0e29c6d3ff564c896c0c3dd28a9bb5065e06725c8f9e3f7c2c6bbad4900b7447ecf9880) :=
  secret_public (by decide +kernel)

/-- /repo/src/goldilocks.rs, `test_private_to_public`. -/
theorem test_private_to_public : private_to_public shake256
    (key 0xa8ea212cc24ae0fd029a97b64be540885af0e1b7dc9faf4a591742850c4377f857ae9a8f87df1de98e397a5867dd6f20211ef3f234ae71bc56) =
    .ok (key 0xb615e57dd4d15c3ed1323725c0ba8b1d7f6e740d08e0e29c6d3ff564c896c0c3dd28a9bb5065e06725c8f9e3f7c2c6bbad4900b7447ecf9880) :=
  private_public (by decide +kernel)

/-- /repo/src/goldilocks.rs, `test_sign_with_private`. -/
theorem test_sign_with_private : sign_by_private shake256
    (key 0x64c2754ee8f55f285d1c6efac34345c78da28df5c31d9ae3748417e0754903004eca31389e978df148e3941de8d4c3585b6dd3669903f00bb5) fox =
    .ok (signature 0xd3ffe2cffeba84f631c9e4f452c7f27023b48e679f30ad9f43b4ef0483670e25842efdd6a20ad74f2c08351e37857763c0e1b787a7a02c5c00708263b206ab852e865676b3b8ad2c86794cd2831b54064cda39e2703a4c172a1debf051e01ae981c58a577731127f2bfb7aaa3f9242572400) :=
  signs_private (by decide +kernel)

/-- /repo/src/goldilocks.rs, `test_sign_with_secret_and_nonce`. -/
theorem test_sign_with_secret_and_nonce : sign_with_secret_and_nonce shake256
    (key 0x26ad14d91ef8f1e5bbf5a1a7e44a9532e4854f1e1346761ee9b4ed1ed103e5e05c87fd9ecd788bc879a7433a7115255b7aad667fe84ee35c28)
    (key 0x66dd9754284a1b7d77c1c43bfdfe38a116bd143e7c901b8e8e4561a7ee0a401dd5120fa2b77e2a6bda3a68d5a47e34fd29cf14ce3489067602) fox =
    .ok (signature 0x71e4ae51aa4d1f59f10efaaca743ca557079c2de1d298375d80eac8c53d29567add49f6296206f6c0d56ad3cd3f34b3644b1b01361900bea803aae2018aea2db72a2c5557a207ba17b8316335817b4a9474def73b3ea0ddaaae593e76596fbeac45c8ef04df3bb23dc809d2b7db49dbf0a00) :=
  signs_secret (by decide +kernel)

/-- /repo/src/goldilocks.rs, `test_incorrect_public_key`. -/
theorem test_incorrect_public_key : ed448_verify shake256
    (hex 57 0x3761457fcdd53dba3dea5848c43aa54fe468284319f032945a3acb9bd4cd0fa7b7c901d978e9acd9eca43fa5b3c32b648c33dcc3f3169e8081)
    (hex 114 0x611d178b128095022653965eb0ed3bc8bbea8e7891b5a121a102a5b29bb895770d204354dbbc67c5567186f92cdb58a601397dfe0022e0ce002c1333b6829c37c732fb909501f719df200ceaaa0e0a1533dc22e4c9c999406c071fee2858bc7c76c66d113ff1ac739564d465cd541b0d1e00)
    (hex 32 0xf092a4af1f2103fe7be067df44370097c444f3bf877783ba56f21cf70ba365a3) = .ok (.error .DecodePubkeyError) :=
  refused (by decide +kernel) (by decide +kernel)

/-- /repo/src/goldilocks.rs, `test_zero_public_and_signature`. -/
theorem test_zero_public_and_signature : ed448_verify shake256
    (hex 57 0x000000000000000000000000000000000000000000000000000000000000000000000000000000000000000000000000000000000000000000)
    (hex 114 0x000000000000000000000000000000000000000000000000000000000000000000000000000000000000000000000000000000000000000000000000000000000000000000000000000000000000000000000000000000000000000000000000000000000000000000000000000000000000)
    (hex 32 0xf092a4af1f2103fe7be067df44370097c444f3bf877783ba56f21cf70ba365a3) = .ok (.error .InvalidSignatureError) :=
  C13_zero_rejected _ _ _ _ (by decide +kernel)

/-- /repo/src/goldilocks.rs, `test_ed448_verify` (commented out there): the
result is `Ok(false)`; the test only prints it. -/
theorem test_ed448_verify : ed448_verify shake256
    (hex 57 0xbddc6f8ef904cc39eff871720fcf794575aa285809c09602ceff06fd741e8a39b2304779778e20c9ac76bc4c5628b6f1ad03d49d3dd09b4380)
    (hex 114 0xfe25200421dd73065668979b4cedc19ddd8536db632d4bc61a569cc07906cc9485c2b1999dcd2234d18e7393b5ec8f21802bd76b6fddb08b808be5264c2a7992474e7efa947019dedb0a0ab5405313837c2270f7b56dfe57b5ccbe6df20f5866231b1ce0df77aeb603944500d0c5e22b3000)
    (hex 32 0x1f7d6d8c8133fb9807148f7188b797ac3d6308df12fc03d37de6ec5088c2f547) = .ok (.ok false) :=
  verifies (by decide +kernel) (by decide +kernel)

end Ed448.Vectors
