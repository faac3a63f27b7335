import Verif.Model.Rust

/-!
# Error messages: src/errors.rs
-/

namespace Ed448

/-- `Display` of a `usize`: the decimal digits, without leading zeros. -/
def displayNat (n : Nat) : List Char :=
  if n < 10 then [Char.ofNat (48 + n)] else displayNat (n / 10) ++ [Char.ofNat (48 + n % 10)]
  termination_by n

/-- `Display` of `LibgoldilockErrors`, derived from the `#[error]` attributes, src/errors.rs:3-28. -/
def Err.display : Err → String
  | .DecodeError => "DecodeErrro"
  | .DecodePubkeyError => "DecodePubkeyError"
  | .DecodeSignatureError => "DecodeSignatureError"
  | .InvalidLengthError => "InvalidLengthError"
  | .InvalidPrivKeyLengthErrro len =>
    "Invalid PrivateKey Length, expected: 57 bytes, got: " ++ String.ofList (displayNat len) ++ " bytes"
  | .InvalidPubkeyLengthError => "InvalidPubkeyLengthError"
  | .InvalidSignatureLengthError => "InvalidSignatureLengthError"
  | .InvalidSignatureError => "InvalidSignatureError"

end Ed448
