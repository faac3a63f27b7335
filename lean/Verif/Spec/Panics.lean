import Verif.Model.Lib
import Verif.Spec.Decode
import Verif.Spec.Hex

/-!
# The calls of the library that can panic

Every public function of the library with its arguments, and the calls among them that are documented here to panic. The functions that only read a
field or write hexadecimal digits (`as_bytes`, `verifying_key`, `secret_key`, `to_bytes`, `as_slice`, `serialize`) and `private_to_secret` and
`ed448_generate_key` are left out: in the model they are total functions.
-/

namespace Ed448

/-- A call of a public function: src/lib.rs:43-240 and src/goldilocks.rs:13-187. `ε` is the type of the errors of the serde format, `σ` that of the
states of the random number generator. -/
inductive PublicCall (ε σ : Type) where
  | secretFromStr (s : List Byte)
  | secretFromBytes (b : List Byte)
  | secretDeserialize (d : Deserializer ε)
  | verifyingFromStr (s : List Byte)
  | verifyingFromBytes (b : List Byte)
  | verifyingDeserialize (d : Deserializer ε)
  | signingFromStr (s : List Byte)
  | signingFromSlice (b : List Byte)
  | signingFromBytes (b : List Byte)
  | signingFromSecret (k : SecretKey)
  | signingDeserialize (d : Deserializer ε)
  | signingRandom (rng : Rng σ) (st : σ)
  | signPrehash (k : SigningKey) (m : List Byte)
  | hexToMessageHash (s : List Byte)
  | hexToPrivateKey (s : List Byte)
  | hexToSignature (s : List Byte)
  | pointBySecret (k : Arr Byte 57)
  | secretToPublic (k : Arr Byte 57)
  | privateToPublic (k : Arr Byte 57)
  | signByPrivate (k : Arr Byte 57) (m : List Byte)
  | signWithSecretAndNonce (k n : Arr Byte 57) (m : List Byte)
  | derivePublic (k : Arr Byte 57)
  | sign (k : Arr Byte 57) (m : List Byte)
  | verify (pk sig m : List Byte)
  | verifyWithError (pk sig m : List Byte)

/-- The string `s` consists of `n` hexadecimal digits, of either case. -/
def DigitString (n : Nat) (s : List Byte) : Prop := s.length = n ∧ ∀ c ∈ s, ∃ v, IsDigit c v

/-- The calls that panic: a string that is not 114 digits where a key is read, not 228 where a signature is read, not 64 where a hash is read; also
inside a serde format for humans; not 57 bytes for a constructor from bytes, other than `SigningKey::from_bytes`; and a signature of fewer than 114
bytes under a public key that is decoded and is not all zero. -/
def PublicCall.Bad {ε σ : Type} : PublicCall ε σ → Prop
  | .secretFromStr s | .verifyingFromStr s | .signingFromStr s | .hexToPrivateKey s => ¬ DigitString 114 s
  | .hexToSignature s => ¬ DigitString 228 s
  | .hexToMessageHash s => ¬ DigitString 64 s
  | .secretDeserialize d | .verifyingDeserialize d | .signingDeserialize d => d.is_human_readable = true ∧ ∃ s, d.string = .ok s ∧ ¬ DigitString 114 s
  | .secretFromBytes b | .verifyingFromBytes b | .signingFromSlice b => b.length ≠ 57
  | .verify pk sig _ | .verifyWithError pk sig _ => pk ≠ List.replicate 57 0 ∧ Accepted pk ∧ sig.length < 114
  | _ => False

end Ed448
