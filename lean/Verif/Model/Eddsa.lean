import Verif.Model.ExtendedPoint

/-!
# EdDSA building blocks and verification: src/eddsa.rs
-/

namespace Ed448

/-- SHAKE256 as a function of the hashed string and the position in the output stream. All theorems quantify over it. -/
abbrev Xof := List Byte → Nat → Byte

/-- `clamp`, src/eddsa.rs:13-17, on the byte string it modifies. All callers pass at least 57 bytes. -/
def clampList (pk : List Byte) : List Byte :=
  let pk := pk.set 0 (pk.getD 0 0 &&& 0xfc)
  let pk := pk.set 56 0
  pk.set 55 (pk.getD 55 0 ||| 0x80)

/-- `clamp` on an array. -/
def clamp {n : Nat} (pk : Arr Byte n) : Arr Byte n :=
  ⟨clampList pk.1, by simp [clampList, pk.2]⟩

/-- `sha3`, src/eddsa.rs:19-24: `n` output bytes of SHAKE256. -/
def sha3 (xof : Xof) (input : List Byte) (n : Nat) : Arr Byte n :=
  ⟨(List.range n).map (xof input), by simp⟩

/-- The prefix of src/eddsa.rs:27-29: `"SigEd448"`, 0, 0. -/
def domPrefix : List Byte := [0x53, 0x69, 0x67, 0x45, 0x64, 0x34, 0x34, 0x38, 0, 0]

/-- `hash_with_dom`, src/eddsa.rs:26-35. -/
def hash_with_dom (xof : Xof) (input : List Byte) (n : Nat) : Arr Byte n :=
  sha3 xof (domPrefix ++ input) n

/-- `sig[lo..hi]` copied into an array: panics if out of range, src/eddsa.rs:67-68. -/
def sliceArr (l : List Byte) (lo n : Nat) : Rust (Arr Byte n) :=
  if h : ((l.drop lo).take n).length = n then .ok ⟨(l.drop lo).take n, h⟩ else .error .bounds

/-- The two points compared at the end of `dsa_verify`, src/eddsa.rs:86-101: `p` is the decoded key, `p2` its multiple by 4,
`r_point` the decoded first half of the signature. -/
def verifyPoints (xof : Xof) (p p2 r_point : Pt) (sig1 sig2 : Arr Byte 57) (message : List Byte) : Rust (Pt × Pt) := do
  let r_point ← r_point.point_scalar_mul SCALAR_FOUR
  let challenge := hash_with_dom xof (sig1.1 ++ p.eddsa_like_encode.1 ++ message) 114
  let challenge_scalar := decode_long challenge.1
  let challenge_scalar := scalarSub SCALAR_ZERO challenge_scalar
  let responce_scalar := decode_long sig2.1
  let pk ← p2.point_double_scalamul_non_secret responce_scalar challenge_scalar
  pure (r_point, pk)

/-- `dsa_verify`, src/eddsa.rs:39-102. -/
def dsa_verify (xof : Xof) (pubkey sig message : List Byte) : Rust (Except Err Bool) := do
  match ← eddsa_like_decode pubkey with
  | .error .InvalidLengthError => pure (.error .InvalidPubkeyLengthError)
  | .error .DecodeError => pure (.error .DecodePubkeyError)
  | .error _ => .error .explicit
  | .ok p =>
    let p2 ← p.point_scalar_mul SCALAR_FOUR
    let sig1 ← sliceArr sig 0 57
    let sig2 ← sliceArr sig 57 57
    match ← eddsa_like_decode sig1.1 with
    | .error .InvalidLengthError => pure (.error .InvalidSignatureLengthError)
    | .error .DecodeError => pure (.error .DecodeSignatureError)
    | .error _ => .error .explicit
    | .ok r_point =>
      let r ← verifyPoints xof p p2 r_point sig1 sig2 message
      pure (.ok (r.1.mod_equal r.2))

end Ed448
