import Verif.Model.Goldilocks

/-!
# Signing while the memory is disturbed

The two signing functions of src/goldilocks.rs once more, with a place for a fault after each buffer that they fill. A fault is any function on the
contents of the buffer: flipped bits, bytes that are stuck, or an attacker who writes what they like. It may be a constant function, so that in a given run
wrong words of a number or a point are covered by a fault of the buffer that is filled from them next. Faults that make the code panic or run on
without end are not modelled. The model is used in C110 only.
-/

namespace Ed448

/-- What happens to the buffers. -/
structure Faults where
  /-- The 57 bytes of which the secret scalar is made, as `decode_long` reads them: `sk` and `s1`, src/goldilocks.rs:65 and 104. The public key is computed
  from bytes that are not disturbed; `s1` is a buffer of its own, `sk` is read again in line 68. -/
  key : Arr Byte 57 → Arr Byte 57
  /-- The 114 bytes of which the nonce is made: `nonce`, src/goldilocks.rs:73 and 111. -/
  nonce : Arr Byte 114 → Arr Byte 114
  /-- The encoded nonce point: `nonce_point`, src/goldilocks.rs:78 and 116. -/
  first : Arr Byte 57 → Arr Byte 57
  /-- The encoded public key before it is hashed, src/goldilocks.rs:82 and 120. -/
  pub : Arr Byte 57 → Arr Byte 57
  /-- The 114 bytes of which the challenge is made: `challenge`, src/goldilocks.rs:84 and 122. -/
  challenge : Arr Byte 114 → Arr Byte 114
  /-- The encoded number at the end, src/goldilocks.rs:92 and 130. -/
  second : Arr Byte 57 → Arr Byte 57

/-- No fault. -/
def Faults.none : Faults := ⟨id, id, id, id, id, id⟩

namespace Faulty

/-- `sign_by_private`, src/goldilocks.rs:59-95, with faults. -/
def sign_by_private (φ : Faults) (xof : Xof) (pk : Arr Byte 57) (message : List Byte) : Rust (Arr Byte 114) := do
  let secret := sha3 xof pk.1 114
  let secret := clamp secret
  let sk : Arr Byte 57 := ⟨secret.1.take 57, by simp [secret.2]⟩
  let sec := decode_long (φ.key sk).1
  let seed := secret.1.drop 57
  let point ← point_by_secret sk
  let nonce := φ.nonce (hash_with_dom xof (seed ++ message) 114)
  let nonce_scalar := decode_long nonce.1
  let nonce_scalar2 := halve nonce_scalar
  let nonce_scalar2 := halve nonce_scalar2
  let np ← precomputed_scalar_mul nonce_scalar2
  let nonce_point := φ.first np.eddsa_like_encode
  let challenge := φ.challenge (hash_with_dom xof (nonce_point.1 ++ (φ.pub point.eddsa_like_encode).1 ++ message) 114)
  let challenge_scalar := decode_long challenge.1
  let challenge_scalar := scalarMul challenge_scalar sec
  let challenge_scalar := scalarAdd challenge_scalar nonce_scalar
  pure (joinSig nonce_point (φ.second (scalarEncode challenge_scalar)))

/-- `sign_with_secret_and_nonce`, src/goldilocks.rs:97-133, with faults. -/
def sign_with_secret_and_nonce (φ : Faults) (xof : Xof) (secret n : Arr Byte 57) (message : List Byte) :
    Rust (Arr Byte 114) := do
  let s1 := clamp secret
  let sec := decode_long (φ.key s1).1
  let pub_point ← point_by_secret secret
  let nonce := φ.nonce (hash_with_dom xof (n.1 ++ message) 114)
  let nonce_scalar := decode_long nonce.1
  let nonce_scalar2 := halve nonce_scalar
  let nonce_scalar2 := halve nonce_scalar2
  let np ← precomputed_scalar_mul nonce_scalar2
  let nonce_point := φ.first np.eddsa_like_encode
  let challenge := φ.challenge (hash_with_dom xof (nonce_point.1 ++ (φ.pub pub_point.eddsa_like_encode).1 ++ message) 114)
  let challenge_scalar := decode_long challenge.1
  let challenge_scalar := scalarMul challenge_scalar sec
  let challenge_scalar := scalarAdd challenge_scalar nonce_scalar
  pure (joinSig nonce_point (φ.second (scalarEncode challenge_scalar)))

/-- `ed448_sign`, src/goldilocks.rs:143-152, with faults. -/
def ed448_sign (φ : Faults) (xof : Xof) (pk : Arr Byte 57) (message : List Byte) : Rust (Arr Byte 114) :=
  if topBitClear pk then sign_by_private φ xof pk message
  else
    let digest := clamp pk
    sign_with_secret_and_nonce φ xof digest digest message

end Faulty

end Ed448
