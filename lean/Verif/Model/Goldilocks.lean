import Verif.Model.Eddsa

/-!
# The public functions: src/goldilocks.rs

A `&str` is modelled by the list of its UTF-8 bytes.
-/

namespace Ed448

/-- `hex::val`: the value of a hexadecimal digit (hex 0.4.3). -/
def hexVal (c : Byte) : Option Byte :=
  let n := c.toNat
  if 0x41 ≤ n ∧ n ≤ 0x46 then some (c - 0x41 + 10)
  else if 0x61 ≤ n ∧ n ≤ 0x66 then some (c - 0x61 + 10)
  else if 0x30 ≤ n ∧ n ≤ 0x39 then some (c - 0x30)
  else none

/-- The decoding loop of `hex::decode_to_slice`. -/
def hexDecodeList : List Byte → Option (List Byte)
  | [] => some []
  | [_] => none
  | a :: b :: rest =>
    match hexVal a, hexVal b, hexDecodeList rest with
    | some x, some y, some r => some (((x <<< 4) ||| y) :: r)
    | _, _, _ => none

/-- `hex::decode_to_slice(hexx, &mut [0; n]).expect("Decoding failed")`: an odd length, a length other than `2 n` and a
character that is no hexadecimal digit are errors. -/
def hexToArr (n : Nat) (hexx : List Byte) : Rust (Arr Byte n) :=
  if hexx.length % 2 ≠ 0 then .error .expect
  else if hexx.length / 2 ≠ n then .error .expect
  else match hexDecodeList hexx with
    | some l => if h : l.length = n then .ok ⟨l, h⟩ else .error .expect
    | none => .error .expect

/-- `hex_to_message_hash`, src/goldilocks.rs:13-17. -/
def hex_to_message_hash (hexx : List Byte) : Rust (Arr Byte 32) := hexToArr 32 hexx

/-- `hex_to_private_key`, src/goldilocks.rs:19-23. -/
def hex_to_private_key (hexx : List Byte) : Rust (Arr Byte 57) := hexToArr 57 hexx

/-- `hex_to_signature`, src/goldilocks.rs:25-29. -/
def hex_to_signature (hexx : List Byte) : Rust (Arr Byte 114) := hexToArr 114 hexx

/-- `point_by_secret`, src/goldilocks.rs:31-39. -/
def point_by_secret (p : Arr Byte 57) : Rust Pt :=
  let digest := clamp p
  let r := decode_long digest.1
  let r := halve r
  let r := halve r
  precomputed_scalar_mul r

/-- `private_to_secret`, src/goldilocks.rs:41-46. -/
def private_to_secret (xof : Xof) (pk : Arr Byte 57) : Arr Byte 57 :=
  let sk := sha3 xof pk.1 57
  ⟨sk.1.set 56 (sk.1.getD 56 0 ||| 0x80), by simp [sk.2]⟩

/-- `secret_to_public`, src/goldilocks.rs:48-53. -/
def secret_to_public (sk : Arr Byte 57) : Rust (Arr Byte 57) := do
  let h ← point_by_secret sk
  pure h.eddsa_like_encode

/-- `private_to_public`, src/goldilocks.rs:55-57. -/
def private_to_public (xof : Xof) (pk : Arr Byte 57) : Rust (Arr Byte 57) :=
  secret_to_public (private_to_secret xof pk)

/-- Concatenation of the two halves of a signature, src/goldilocks.rs:90-92 and 128-130. -/
def joinSig (r s : Arr Byte 57) : Arr Byte 114 := ⟨r.1 ++ s.1, by simp [r.2, s.2]⟩

/-- `sign_by_private`, src/goldilocks.rs:59-95. -/
def sign_by_private (xof : Xof) (pk : Arr Byte 57) (message : List Byte) : Rust (Arr Byte 114) := do
  let secret := sha3 xof pk.1 114
  let secret := clamp secret
  let sk : Arr Byte 57 := ⟨secret.1.take 57, by simp [secret.2]⟩
  let sec := decode_long sk.1
  let seed := secret.1.drop 57
  let point ← point_by_secret sk
  let nonce := hash_with_dom xof (seed ++ message) 114
  let nonce_scalar := decode_long nonce.1
  let nonce_scalar2 := halve nonce_scalar
  let nonce_scalar2 := halve nonce_scalar2
  let np ← precomputed_scalar_mul nonce_scalar2
  let nonce_point := np.eddsa_like_encode
  let challenge := hash_with_dom xof (nonce_point.1 ++ point.eddsa_like_encode.1 ++ message) 114
  let challenge_scalar := decode_long challenge.1
  let challenge_scalar := scalarMul challenge_scalar sec
  let challenge_scalar := scalarAdd challenge_scalar nonce_scalar
  pure (joinSig nonce_point (scalarEncode challenge_scalar))

/-- `sign_with_secret_and_nonce`, src/goldilocks.rs:97-133. -/
def sign_with_secret_and_nonce (xof : Xof) (secret n : Arr Byte 57) (message : List Byte) :
    Rust (Arr Byte 114) := do
  let s1 := clamp secret
  let sec := decode_long s1.1
  let pub_point ← point_by_secret secret
  let nonce := hash_with_dom xof (n.1 ++ message) 114
  let nonce_scalar := decode_long nonce.1
  let nonce_scalar2 := halve nonce_scalar
  let nonce_scalar2 := halve nonce_scalar2
  let np ← precomputed_scalar_mul nonce_scalar2
  let nonce_point := np.eddsa_like_encode
  let challenge := hash_with_dom xof (nonce_point.1 ++ pub_point.eddsa_like_encode.1 ++ message) 114
  let challenge_scalar := decode_long challenge.1
  let challenge_scalar := scalarMul challenge_scalar sec
  let challenge_scalar := scalarAdd challenge_scalar nonce_scalar
  pure (joinSig nonce_point (scalarEncode challenge_scalar))

/-- `pk[56] & 0x80 == 0x00`, src/goldilocks.rs:136 and 144. -/
def topBitClear (pk : Arr Byte 57) : Bool :=
  (pk.1[56]'(by simp [pk.2]) &&& 0x80) == 0

/-- `ed448_derive_public`, src/goldilocks.rs:135-141. -/
def ed448_derive_public (xof : Xof) (pk : Arr Byte 57) : Rust (Arr Byte 57) :=
  if topBitClear pk then private_to_public xof pk else secret_to_public pk

/-- `ed448_sign`, src/goldilocks.rs:143-152. -/
def ed448_sign (xof : Xof) (pk : Arr Byte 57) (message : List Byte) : Rust (Arr Byte 114) :=
  if topBitClear pk then sign_by_private xof pk message
  else
    let digest := clamp pk
    sign_with_secret_and_nonce xof digest digest message

/-- `ed448_verify`, src/goldilocks.rs:154-161. -/
def ed448_verify (xof : Xof) (pubkey sig message : List Byte) : Rust (Except Err Bool) :=
  if pubkey = List.replicate 57 0 ∨ sig = List.replicate 114 0 then
    pure (.error .InvalidSignatureError)
  else dsa_verify xof pubkey sig message

/-- `ed448_verify_with_error`, src/goldilocks.rs:163-179. -/
def ed448_verify_with_error (xof : Xof) (pubkey sig message : List Byte) :
    Rust (Except Err Unit) :=
  if pubkey = List.replicate 57 0 ∨ sig = List.replicate 114 0 then
    pure (.error .InvalidSignatureError)
  else do
    match ← dsa_verify xof pubkey sig message with
    | .error e => pure (.error e)
    | .ok is_ok => if !is_ok then pure (.error .InvalidSignatureError) else pure (.ok ())

/-- `rand::RngCore` as far as it is used: `fill_bytes` on a buffer of `n` bytes, with the state of the generator. All theorems quantify over it. -/
structure Rng (σ : Type) where
  fill_bytes : (n : Nat) → σ → Arr Byte n × σ

/-- `ed448_generate_key`, src/goldilocks.rs:181-185, `rng` and `st` being the thread-local generator: the key and the generator afterwards. -/
def ed448_generate_key {σ : Type} (rng : Rng σ) (st : σ) : Arr Byte 57 × σ :=
  let random_key := rng.fill_bytes 57 st
  random_key

end Ed448
