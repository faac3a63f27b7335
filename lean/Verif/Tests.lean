import Verif.Model.Lib

/-!
# Checks of the model against test vectors

These evaluations are no proofs and no theorem depends on them. They run the model on the test vectors of
/repo/src/goldilocks.rs, /repo/src/eddsa.rs and RFC 8032 section 7.4, with an implementation of SHAKE256, to catch
transcription errors in the model.
-/

namespace Ed448.Tests

/-- Keccak round constants. -/
def rc : List UInt64 :=
  [0x0000000000000001, 0x0000000000008082, 0x800000000000808a, 0x8000000080008000,
   0x000000000000808b, 0x0000000080000001, 0x8000000080008081, 0x8000000000008009,
   0x000000000000008a, 0x0000000000000088, 0x0000000080008009, 0x000000008000000a,
   0x000000008000808b, 0x800000000000008b, 0x8000000000008089, 0x8000000000008003,
   0x8000000000008002, 0x8000000000000080, 0x000000000000800a, 0x800000008000000a,
   0x8000000080008081, 0x8000000000008080, 0x0000000080000001, 0x8000000080008008]

/-- Rotation offsets, indexed `x + 5 y`. -/
def rot : Array Nat :=
  #[0, 1, 62, 28, 27, 36, 44, 6, 55, 20, 3, 10, 43, 25, 39, 41, 45, 15, 21, 8, 18, 2, 61, 56, 14]

def rotl (x : UInt64) (n : Nat) : UInt64 :=
  if n = 0 then x else (x <<< n.toUInt64) ||| (x >>> (64 - n).toUInt64)

def round (s : Array UInt64) (c : UInt64) : Array UInt64 := Id.run do
  let mut s := s
  let mut col : Array UInt64 := #[]
  for x in [0:5] do
    col := col.push (s[x]! ^^^ s[x+5]! ^^^ s[x+10]! ^^^ s[x+15]! ^^^ s[x+20]!)
  for i in [0:25] do
    let x := i % 5
    s := s.set! i (s[i]! ^^^ col[(x+4)%5]! ^^^ rotl col[(x+1)%5]! 1)
  let mut b : Array UInt64 := Array.replicate 25 0
  for x in [0:5] do
    for y in [0:5] do
      b := b.set! (y + 5 * ((2*x + 3*y) % 5)) (rotl s[x + 5*y]! rot[x + 5*y]!)
  for x in [0:5] do
    for y in [0:5] do
      s := s.set! (x + 5*y) (b[x + 5*y]! ^^^ ((~~~ b[(x+1)%5 + 5*y]!) &&& b[(x+2)%5 + 5*y]!))
  return s.set! 0 (s[0]! ^^^ c)

def keccak (s : Array UInt64) : Array UInt64 := rc.foldl round s

/-- SHAKE256, the first `n ≤ 136` bytes of output. -/
def shake (input : List Byte) : Array UInt64 := Id.run do
  let mut bytes : Array Nat := (input.map BitVec.toNat).toArray
  bytes := bytes.push 0x1f
  while bytes.size % 136 ≠ 0 do
    bytes := bytes.push 0
  bytes := bytes.set! (bytes.size - 1) (bytes[bytes.size - 1]! + 0x80)
  let mut s : Array UInt64 := Array.replicate 25 0
  for blk in [0:bytes.size / 136] do
    for i in [0:136] do
      let v := bytes[136 * blk + i]!.toUInt64 <<< (8 * (i % 8)).toUInt64
      s := s.set! (i / 8) (s[i / 8]! ^^^ v)
    s := keccak s
  return s

/-- SHAKE256 as an `Xof` (outputs up to 136 bytes, which is all the code reads). -/
def shake256 : Xof := fun input =>
  let s := shake input
  fun i => BitVec.ofNat 8 ((s[i / 8]! >>> (8 * (i % 8)).toUInt64).toNat % 256)

/-- Bytes of an ASCII string. -/
def ascii (s : String) : List Byte := s.toList.map (fun c => BitVec.ofNat 8 c.toNat)

/-- The bytes written in hexadecimal. -/
def hx (s : String) : List Byte := (hexDecodeList (ascii s)).getD []

/-- A 57-byte array written in hexadecimal. -/
def key (s : String) : Arr Byte 57 :=
  if h : (hx s).length = 57 then ⟨hx s, h⟩ else ⟨List.replicate 57 0, by simp⟩

def fox : List Byte := ascii "The quick brown fox jumps over the lazy dog"

/-- Run and compare. -/
def gives {n : Nat} (r : Rust (Arr Byte n)) (s : String) : Bool :=
  match r with
  | .ok a => a.1 == hx s
  | .error _ => false

-- src/goldilocks.rs: test_private_to_secret
#guard (private_to_secret shake256 (key "a8ea212cc24ae0fd029a97b64be540885af0e1b7dc9faf4a591742850c4377f857ae9a8f87df1de98e397a5867dd6f20211ef3f234ae71bc56")).1 == hx "1413821ed67083c855c6db4405dd4fa5fdec39e1c761be1415623c1c202c5cb5176e578830372b7e07eb1ef9cf71b19518815c4da0fd2d3594"
-- test_secret_to_public
#guard gives (secret_to_public (key "1413821ed67083c855c6db4405dd4fa5fdec39e1c761be1415623c1c202c5cb5176e578830372b7e07eb1ef9cf71b19518815c4da0fd2d3594")) "b615e57dd4d15c3ed1323725c0ba8b1d7f6e740d08e0e29c6d3ff564c896c0c3dd28a9bb5065e06725c8f9e3f7c2c6bbad4900b7447ecf9880"
-- test_sign_with_private
#guard gives (sign_by_private shake256 (key "64c2754ee8f55f285d1c6efac34345c78da28df5c31d9ae3748417e0754903004eca31389e978df148e3941de8d4c3585b6dd3669903f00bb5") fox) "d3ffe2cffeba84f631c9e4f452c7f27023b48e679f30ad9f43b4ef0483670e25842efdd6a20ad74f2c08351e37857763c0e1b787a7a02c5c00708263b206ab852e865676b3b8ad2c86794cd2831b54064cda39e2703a4c172a1debf051e01ae981c58a577731127f2bfb7aaa3f9242572400"
-- test_sign_with_secret_and_nonce
#guard gives (sign_with_secret_and_nonce shake256 (key "26ad14d91ef8f1e5bbf5a1a7e44a9532e4854f1e1346761ee9b4ed1ed103e5e05c87fd9ecd788bc879a7433a7115255b7aad667fe84ee35c28") (key "66dd9754284a1b7d77c1c43bfdfe38a116bd143e7c901b8e8e4561a7ee0a401dd5120fa2b77e2a6bda3a68d5a47e34fd29cf14ce3489067602") fox) "71e4ae51aa4d1f59f10efaaca743ca557079c2de1d298375d80eac8c53d29567add49f6296206f6c0d56ad3cd3f34b3644b1b01361900bea803aae2018aea2db72a2c5557a207ba17b8316335817b4a9474def73b3ea0ddaaae593e76596fbeac45c8ef04df3bb23dc809d2b7db49dbf0a00"
-- test_ed448_derive_public
#guard gives (ed448_derive_public shake256 (key "582f73eb3d951ef93a8c392c7b113ad85c0f60a744c95c47370d4d593593edc0d745eb24fa2130f51fd5b1e6b2363a5405bf1e074ecbf4382d")) "4e6ef3aa2a74ce85c9c75de379c72abbce30601db4f66af1535d00190fa5de83af3831fa32e37c59e14a25788e56140896fb59b494e4fdca80"
#guard gives (ed448_derive_public shake256 (key "59fc82f514f3fc8d02d987e52a03cdcae81a257bed6ec9b668bf6acd8fe9e7d27cbcc4d8f463d917642d30e7ca44c3521370f78790b3b561dd")) "3cba3b2560c2779170ce5947f55bf73b93a1dd51d99b0b483ed0cfb5a9bb8409830c0f96068c799dbc6a28ca6bc1aad95d0387c36a731d7800"
-- test_ed448_sign
#guard gives (ed448_sign shake256 (key "e959068474bc720bf3a94c7a524750f0d4fe68a4828137e58d48303af1fa929a6c50f87d0cab27fc557aa1a3190cfad0abbca2a2e5d7da272d") fox) "92a7e08f86b25f288eb0308f3fb780950ab77c333d5d1b91b6de40a199fc028fe66a001dc09341905a58f8c3d4a959ee5d416735f59d91640095dd83e70b6bc05fa6a26b32c00be454bfb87285417554183c2da64bbbad77b746bd86299fd4188578bc9aa321a8291c5d2281029ca24e2d00"
#guard gives (ed448_sign shake256 (key "1edc2069350104b5594c602f7967c4b1580f2a757fc9a2745f621868cd333c245ec3c775d730d3c01a2e18f3e5d0b5e767ed3ec77e69732781") fox) "789dd9e1a4471c30cfef1da68076542e6918676424593936dbeb282f5929dcfa3437aef85fd890999ea7a1b16a2c8c3a8cf330c58768789b006b183034ec43acab783039d53fe46f6c39ab29f988a43371d07fe7746a2fd45c660f2a8c441446b8f1cdbfc0787e4cfe69280e5cd7b92d0400"
-- src/eddsa.rs: test_dsa_verify
#guard ed448_verify shake256 (hx "c3c19c1a119942fbe298f5df7565cf300365060362ac436f5cb4893adbf2217cab5f134d75f05fd794c0ac9fd10029b4e282edc9b3e4207880") (hx "d3ffe2cffeba84f631c9e4f452c7f27023b48e679f30ad9f43b4ef0483670e25842efdd6a20ad74f2c08351e37857763c0e1b787a7a02c5c00708263b206ab852e865676b3b8ad2c86794cd2831b54064cda39e2703a4c172a1debf051e01ae981c58a577731127f2bfb7aaa3f9242572400") fox matches .ok (.ok true)
#guard ed448_verify shake256 (hx "c3c19c1a119942fbe298f5df7565cf300365060362ac436f5cb4893adbf2217cab5f134d75f05fd794c0ac9fd10029b4e282edc9b3e4207880") (hx "d3ffe2cffeba84f631c9e4f452c7f27023b48e679f30ad9f43b4ef0483670e25842efdd6a20ad74f2c08351e37857763c0e1b787a7a02c5c00708263b206ab852e865676b3b8ad2c86794cd2831b54064cda39e2703a4c172a1debf051e01ae981c58a577731127f2bfb7aaa3f9242572400") fox.tail matches .ok (.ok false)
-- test_incorrect_public_key
#guard ed448_verify shake256 (hx "3761457fcdd53dba3dea5848c43aa54fe468284319f032945a3acb9bd4cd0fa7b7c901d978e9acd9eca43fa5b3c32b648c33dcc3f3169e8081") (hx "611d178b128095022653965eb0ed3bc8bbea8e7891b5a121a102a5b29bb895770d204354dbbc67c5567186f92cdb58a601397dfe0022e0ce002c1333b6829c37c732fb909501f719df200ceaaa0e0a1533dc22e4c9c999406c071fee2858bc7c76c66d113ff1ac739564d465cd541b0d1e00") (hx "f092a4af1f2103fe7be067df44370097c444f3bf877783ba56f21cf70ba365a3") matches .ok (.error .DecodePubkeyError)
-- RFC 8032 section 7.4, the first vector (empty message)
#guard gives (ed448_derive_public shake256 (key "6c82a562cb808d10d632be89c8513ebf6c929f34ddfa8c9f63c9960ef6e348a3528c8a3fcc2f044e39a3fc5b94492f8f032e7549a20098f95b")) "5fd7449b59b461fd2ce787ec616ad46a1da1342485a70e1f8a0ea75d80e96778edf124769b46c7061bd6783df1e50f6cd1fa1abeafe8256180"

end Ed448.Tests
