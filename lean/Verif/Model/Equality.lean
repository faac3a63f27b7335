import Verif.Model.Lib

/-!
# `==` on keys and errors

`SecretKey`, `VerifyingKey` and `SigningKey` derive `PartialEq` and `Eq` (src/lib.rs:23, 28, 33), `LibgoldilockErrors` derives `PartialEq`
(src/errors.rs:3). What a derived comparison does is fixed by the standard library: it compares the fields in the order in which they are declared and
stops at the first one that differs; arrays are equal if all their elements are. Only the result is modelled, not the time (the compiler is free to compare 57 bytes
in any way). `Signature` (src/lib.rs:39-41) derives nothing and cannot be compared. `Clone` and `Copy` make copies of the arrays; in the model they are the
identity and have no definition.
-/

namespace Ed448

/-- `==` on arrays of bytes (`PartialEq for [u8; 57]`, standard library): all elements are equal. -/
def bytesEq : List Byte → List Byte → Bool
  | [], [] => true
  | a :: as, b :: bs => if a.toNat = b.toNat then bytesEq as bs else false
  | _, _ => false

/-- `PartialEq for SecretKey`, src/lib.rs:23-26. -/
def SecretKey.eq (a b : SecretKey) : Bool := bytesEq a.key.1 b.key.1

/-- `PartialEq for VerifyingKey`, src/lib.rs:28-31. -/
def VerifyingKey.eq (a b : VerifyingKey) : Bool := bytesEq a.key.1 b.key.1

/-- `PartialEq for SigningKey`, src/lib.rs:33-37. -/
def SigningKey.eq (a b : SigningKey) : Bool := a.secret_key.eq b.secret_key && a.verifying_key.eq b.verifying_key

/-- `PartialEq for LibgoldilockErrors`, src/errors.rs:3-28: the same variant, and the same length in the variant that has one. -/
def Err.eq : Err → Err → Bool
  | .DecodeError, .DecodeError => true
  | .DecodePubkeyError, .DecodePubkeyError => true
  | .DecodeSignatureError, .DecodeSignatureError => true
  | .InvalidLengthError, .InvalidLengthError => true
  | .InvalidPrivKeyLengthErrro len, .InvalidPrivKeyLengthErrro len' => decide (len = len')
  | .InvalidPubkeyLengthError, .InvalidPubkeyLengthError => true
  | .InvalidSignatureLengthError, .InvalidSignatureLengthError => true
  | .InvalidSignatureError, .InvalidSignatureError => true
  | _, _ => false

end Ed448
