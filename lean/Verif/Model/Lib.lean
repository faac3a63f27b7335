import Verif.Model.Goldilocks

/-!
# The key types: src/lib.rs
-/

namespace Ed448

/-- `SecretKey`, src/lib.rs:23-26. -/
structure SecretKey where
  key : Arr Byte 57
  deriving DecidableEq

/-- `VerifyingKey`, src/lib.rs:28-31. -/
structure VerifyingKey where
  key : Arr Byte 57
  deriving DecidableEq

/-- `SigningKey`, src/lib.rs:33-37. -/
structure SigningKey where
  secret_key : SecretKey
  verifying_key : VerifyingKey
  deriving DecidableEq

/-- `Signature`, src/lib.rs:39-41. -/
structure Signature where
  sig : Arr Byte 171
  deriving DecidableEq

/-- `bytes.try_into().expect(..)` and `copy_from_slice` into a 57-byte array: panics unless the length is 57. -/
def toArr57 (why : Panic) (bytes : List Byte) : Rust (Arr Byte 57) :=
  if h : bytes.length = 57 then .ok ⟨bytes, h⟩ else .error why

/-- `SecretKey::from_str`, src/lib.rs:44-48. -/
def SecretKey.from_str (str : List Byte) : Rust SecretKey := do
  let key ← hex_to_private_key str
  pure ⟨key⟩

/-- `SecretKey::from_bytes`, src/lib.rs:50-54. -/
def SecretKey.from_bytes (bytes : List Byte) : Rust SecretKey := do
  let key ← toArr57 .expect bytes
  pure ⟨key⟩

/-- `VerifyingKey::from_str`, src/lib.rs:64-68. -/
def VerifyingKey.from_str (str : List Byte) : Rust VerifyingKey := do
  let key ← hex_to_private_key str
  pure ⟨key⟩

/-- `VerifyingKey::from_bytes`, src/lib.rs:70-74. -/
def VerifyingKey.from_bytes (bytes : List Byte) : Rust VerifyingKey := do
  let key ← toArr57 .expect bytes
  pure ⟨key⟩

/-- `VerifyingKey::as_bytes`, src/lib.rs:76-78. -/
def VerifyingKey.as_bytes (k : VerifyingKey) : List Byte := k.key.1

/-- `SigningKey::from_str`, src/lib.rs:82-92. -/
def SigningKey.from_str (xof : Xof) (str : List Byte) : Rust SigningKey := do
  let private_key ← hex_to_private_key str
  let public_key ← ed448_derive_public xof private_key
  pure ⟨⟨private_key⟩, ⟨public_key⟩⟩

/-- `SigningKey::from_slice`, src/lib.rs:97-108. -/
def SigningKey.from_slice (xof : Xof) (s : List Byte) : Rust SigningKey := do
  let private_key ← toArr57 .bounds s
  let public_key ← ed448_derive_public xof private_key
  pure ⟨⟨private_key⟩, ⟨public_key⟩⟩

/-- `From<SecretKey> for SigningKey`, src/lib.rs:57-61. -/
def SigningKey.fromSecretKey (xof : Xof) (s : SecretKey) : Rust SigningKey :=
  SigningKey.from_slice xof s.key.1

/-- `SigningKey::from_bytes`, src/lib.rs:110-126. -/
def SigningKey.from_bytes (xof : Xof) (s : List Byte) : Rust (Except Err SigningKey) :=
  if s.length ≠ 57 then pure (.error (.InvalidPrivKeyLengthErrro s.length))
  else do
    let private_key ← toArr57 .bounds s
    let public_key ← ed448_derive_public xof private_key
    pure (.ok ⟨⟨private_key⟩, ⟨public_key⟩⟩)

/-- `SigningKey::random`, src/lib.rs:128-136: the key and the generator afterwards. -/
def SigningKey.random {σ : Type} (xof : Xof) (rng : Rng σ) (st : σ) : Rust (SigningKey × σ) := do
  let key := rng.fill_bytes 57 st
  let k ← SigningKey.from_slice xof key.1.1
  pure (k, key.2)

/-- `SigningKey::verifying_key`, src/lib.rs:138-140. -/
def SigningKey.get_verifying_key (k : SigningKey) : VerifyingKey := k.verifying_key

/-- `SigningKey::secret_key`, src/lib.rs:142-144. -/
def SigningKey.get_secret_key (k : SigningKey) : SecretKey := k.secret_key

/-- `SigningKey::to_bytes`, src/lib.rs:146-148. -/
def SigningKey.to_bytes (k : SigningKey) : Arr Byte 57 := k.secret_key.key

/-- `sign_prehash`, src/lib.rs:151-162. -/
def SigningKey.sign_prehash (xof : Xof) (k : SigningKey) (prehash : List Byte) :
    Rust (Except Err Signature) := do
  let sig ← ed448_sign xof k.secret_key.key prehash
  pure (.ok ⟨⟨sig.1 ++ k.verifying_key.key.1, by simp [sig.2, k.verifying_key.key.2]⟩⟩)

/-- `Signature::as_slice`, src/lib.rs:164-168. -/
def Signature.as_slice (s : Signature) : List Byte := s.sig.1

/-- A lower-case hexadecimal digit, as written by `hex::encode`. -/
def hexDigit (n : Nat) : Byte := if n < 10 then BitVec.ofNat 8 (0x30 + n) else BitVec.ofNat 8 (0x61 + n - 10)

/-- `hex::encode`: two lower-case digits for each byte. -/
def hexEncode : List Byte → List Byte
  | [] => []
  | b :: bs => hexDigit (b.toNat / 16) :: hexDigit (b.toNat % 16) :: hexEncode bs

/-- A serde deserializer as far as the implementations in src/lib.rs look at it: the format flag and what
`String::deserialize` yields. -/
structure Deserializer (ε : Type) where
  is_human_readable : Bool
  string : Except ε (List Byte)

/-- A serde error: one raised by the format, or the custom message of src/lib.rs:189. -/
inductive DeError (ε : Type) where
  | format (e : ε)
  | expectedString
  deriving DecidableEq

/-- `Serialize for SigningKey`, src/lib.rs:170-178: the string given to the serializer. -/
def SigningKey.serialize (k : SigningKey) : List Byte := hexEncode k.secret_key.key.1

/-- `Serialize for SecretKey`, src/lib.rs:194-202. -/
def SecretKey.serialize (k : SecretKey) : List Byte := hexEncode k.key.1

/-- `Serialize for VerifyingKey`, src/lib.rs:218-226. -/
def VerifyingKey.serialize (k : VerifyingKey) : List Byte := hexEncode k.key.1

/-- The common body of the three `Deserialize` implementations, src/lib.rs:185-190, 209-214, 233-238. -/
def deserializeWith {α ε : Type} (from_str : List Byte → Rust α) (d : Deserializer ε) :
    Rust (Except (DeError ε) α) :=
  if d.is_human_readable then
    match d.string with
    | .error e => pure (.error (.format e))
    | .ok s => do
      let k ← from_str s
      pure (.ok k)
  else pure (.error .expectedString)

/-- `Deserialize for SigningKey`, src/lib.rs:180-192. -/
def SigningKey.deserialize {ε : Type} (xof : Xof) (d : Deserializer ε) :
    Rust (Except (DeError ε) SigningKey) := deserializeWith (SigningKey.from_str xof) d

/-- `Deserialize for SecretKey`, src/lib.rs:204-216. -/
def SecretKey.deserialize {ε : Type} (d : Deserializer ε) :
    Rust (Except (DeError ε) SecretKey) := deserializeWith SecretKey.from_str d

/-- `Deserialize for VerifyingKey`, src/lib.rs:228-240. -/
def VerifyingKey.deserialize {ε : Type} (d : Deserializer ε) :
    Rust (Except (DeError ε) VerifyingKey) := deserializeWith VerifyingKey.from_str d

end Ed448
