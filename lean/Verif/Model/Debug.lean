import Verif.Model.Errors
import Verif.Model.Lib

/-!
# `{:?}` and `{:#?}` output of the key types and of the errors

The implementations are derived (`#[derive(Debug)]`); what they print is fixed by the standard library: a structure as
`Name { field: value, field: value }`, an array as `[a, b, c]`, a `u8` in decimal, an enum variant as its name, with the value in parentheses if it
has one. In the form `{:#?}` every field and every element has a line of its own, which ends with a comma, and lines inside are indented by four spaces.
Other flags (`{:x?}`, widths) are not modelled.
-/

namespace Ed448

/-- Separated by a comma and a space. -/
def commaSeparated : List (List Char) → List Char
  | [] => []
  | [a] => a
  | a :: b :: l => a ++ [',', ' '] ++ commaSeparated (b :: l)

/-- `Debug` of `[u8; n]`. -/
def debugBytes (bytes : List Byte) : List Char := ['['] ++ commaSeparated (bytes.map fun b => displayNat b.toNat) ++ [']']

/-- Derived `Debug` of a structure. -/
def debugStruct (name : List Char) (fields : List (List Char × List Char)) : List Char :=
  name ++ [' ', '{', ' '] ++ commaSeparated (fields.map fun f => f.1 ++ [':', ' '] ++ f.2) ++ [' ', '}']

/-- `Debug` of `SecretKey`, src/lib.rs:23-26. -/
def SecretKey.debug (k : SecretKey) : List Char := debugStruct "SecretKey".toList [("key".toList, debugBytes k.key.1)]

/-- `Debug` of `VerifyingKey`, src/lib.rs:28-31. -/
def VerifyingKey.debug (k : VerifyingKey) : List Char := debugStruct "VerifyingKey".toList [("key".toList, debugBytes k.key.1)]

/-- `Debug` of `SigningKey`, src/lib.rs:33-37. -/
def SigningKey.debug (k : SigningKey) : List Char :=
  debugStruct "SigningKey".toList [("secret_key".toList, k.secret_key.debug), ("verifying_key".toList, k.verifying_key.debug)]

/-- `Debug` of `LibgoldilockErrors`, src/errors.rs:3-28. -/
def Err.debug : Err → List Char
  | .DecodeError => "DecodeError".toList
  | .DecodePubkeyError => "DecodePubkeyError".toList
  | .DecodeSignatureError => "DecodeSignatureError".toList
  | .InvalidLengthError => "InvalidLengthError".toList
  | .InvalidPrivKeyLengthErrro len => "InvalidPrivKeyLengthErrro".toList ++ ['('] ++ displayNat len ++ [')']
  | .InvalidPubkeyLengthError => "InvalidPubkeyLengthError".toList
  | .InvalidSignatureLengthError => "InvalidSignatureLengthError".toList
  | .InvalidSignatureError => "InvalidSignatureError".toList

/-! ## The form with several lines, `{:#?}` -/

/-- `PadAdapter` of the standard library: four spaces at the start of each line. `start` tells whether a line starts here. -/
def padLines : (start : Bool) → List Char → List Char
  | _, [] => []
  | start, c :: cs => (if start then [' ', ' ', ' ', ' '] else []) ++ c :: padLines (c == '\n') cs

/-- A field or an element on its own lines. -/
def padded (entry : List Char) : List Char := padLines true (entry ++ [',', '\n'])

/-- `Debug` of `[u8; n]` on several lines. -/
def prettyBytes (bytes : List Byte) : List Char :=
  ['['] ++ (if bytes = [] then [] else ['\n']) ++ (bytes.map fun b => padded (displayNat b.toNat)).flatten ++ [']']

/-- Derived `Debug` of a structure, with at least one field, on several lines. -/
def prettyStruct (name : List Char) (fields : List (List Char × List Char)) : List Char :=
  name ++ [' ', '{', '\n'] ++ (fields.map fun f => padded (f.1 ++ [':', ' '] ++ f.2)).flatten ++ ['}']

/-- `{:#?}` of `SecretKey`, src/lib.rs:23-26. -/
def SecretKey.pretty (k : SecretKey) : List Char := prettyStruct "SecretKey".toList [("key".toList, prettyBytes k.key.1)]

/-- `{:#?}` of `VerifyingKey`, src/lib.rs:28-31. -/
def VerifyingKey.pretty (k : VerifyingKey) : List Char := prettyStruct "VerifyingKey".toList [("key".toList, prettyBytes k.key.1)]

/-- `{:#?}` of `SigningKey`, src/lib.rs:33-37. -/
def SigningKey.pretty (k : SigningKey) : List Char :=
  prettyStruct "SigningKey".toList [("secret_key".toList, k.secret_key.pretty), ("verifying_key".toList, k.verifying_key.pretty)]

/-- `{:#?}` of `LibgoldilockErrors`, src/errors.rs:3-28. -/
def Err.pretty : Err → List Char
  | .InvalidPrivKeyLengthErrro len => "InvalidPrivKeyLengthErrro".toList ++ ['(', '\n'] ++ padded (displayNat len) ++ [')']
  | e => e.debug

end Ed448
