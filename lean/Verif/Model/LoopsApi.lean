import Verif.Model.Loops

/-!
# The rest of the code with every check: decoding, signing and verification

As in `Verif/Model/Loops.lean`: arrays are lists, and every index, slice, `copy_from_slice` and checked arithmetic operation is written out. Each function calls the
checked version of the functions it uses. `Verif/Checked/Api.lean` proves that the functions of this file return what the functions of the same
names in the rest of the model return.
-/

namespace Ed448.Chk

/-! ## src/extended_point.rs -/

/-- Recovery of the x coordinate, src/extended_point.rs:531-538. -/
def decodeRoot (y : BN) (low : W32) : Rust BN := do
  let x := square y
  let z ← BigNumber.sub BIG_ONE x
  let t ← BigNumber.mul_with_signed_curve_constant x EDWARDS_D
  let t ← BigNumber.sub BIG_ONE t
  let x := Ed448.mul z t
  let t ← BigNumber.isr x
  let x := Ed448.mul t z
  let l ← BigNumber.low_bit x
  BigNumber.decaf_cond_negate x (~~~l ^^^ low)

/-- The isogeny, src/extended_point.rs:539-554. -/
def decodeIsogeny (x y : BN) : Rust Pt := do
  let z := BIG_ONE
  let c := square x
  let a := square y
  let d := Ed448.add c a
  let t := Ed448.add y x
  let b := square t
  let b ← BigNumber.sub b d
  let t ← BigNumber.sub a c
  let x := square z
  let z := Ed448.add x x
  let a ← BigNumber.sub z d
  let x := Ed448.mul a b
  let z := Ed448.mul t a
  let y := Ed448.mul t d
  let t := Ed448.mul b d
  pure ⟨x, y, z, t⟩

/-- The checks and the division by 4, src/extended_point.rs:556-567. -/
def decodeFinish (p : Pt) (succ : W32) : Rust (Except Err Pt) := do
  let ok ← is_on_curve p
  if !ok || succ == 0 then pure (.error .DecodeError)
  else do
    let scalar_one_forth ← halve SCALAR_ONE.1
    let scalar_one_forth ← halve scalar_one_forth
    let p ← point_scalar_mul p scalar_one_forth
    pure (.ok p)

/-- `eddsa_like_decode`, src/extended_point.rs:513-568. -/
def eddsa_like_decode (src_org : List Byte) : Rust (Except Err Pt) :=
  if src_org.length ≠ 57 then pure (.error .InvalidLengthError)
  else do
    let src ← copyInto (List.replicate 57 0) 0 57 src_org
    let b ← idx src 56
    let low := ~~~(is_zero_mask (0x80 &&& b.setWidth 32))
    let b := b &&& (~~~(0x80 : W32)).setWidth 8
    let src ← setIdx src 56 b
    let b ← idx src 56
    let succ := is_zero_mask (b.setWidth 32)
    let (y, succ1) ← dsa_like_deserialize src 0
    let succ := succ &&& succ1
    let y := BN.ofList y
    let x ← decodeRoot y low
    let p ← decodeIsogeny x y
    decodeFinish p succ

/-! ## src/eddsa.rs -/

/-- `clamp`, src/eddsa.rs:13-17. -/
def clamp (pk : List Byte) : Rust (List Byte) := do
  let b ← idx pk 0
  let pk ← setIdx pk 0 (b &&& 0xfc)
  let pk ← setIdx pk 56 0
  let b ← idx pk 55
  setIdx pk 55 (b ||| 0x80)

/-- `dsa_verify` from line 57 on, src/eddsa.rs:57-101: `p` is the decoded public key. -/
def verifyWith (xof : Xof) (p : Pt) (sig message : List Byte) : Rust (Except Err Bool) := do
  let p2 ← point_scalar_mul p SCALAR_FOUR.1
  let s ← slice sig 0 57
  let sig1 ← copyInto (List.replicate 57 0) 0 57 s
  let s ← slice sig 57 114
  let sig2 ← copyInto (List.replicate 57 0) 0 57 s
  match ← eddsa_like_decode sig1 with
  | .error .InvalidLengthError => pure (.error .InvalidSignatureLengthError)
  | .error .DecodeError => pure (.error .DecodeSignatureError)
  | .error _ => .error .explicit
  | .ok r_point =>
    let r_point ← point_scalar_mul r_point SCALAR_FOUR.1
    let enc ← eddsa_like_encode p
    let challenge := (hash_with_dom xof (sig1 ++ enc ++ message) 114).1
    let challenge_scalar ← decode_long challenge
    let challenge_scalar ← sub SCALAR_ZERO.1 challenge_scalar
    let responce_scalar ← decode_long sig2
    let pk ← point_double_scalamul_non_secret p2 responce_scalar challenge_scalar
    let r ← mod_equal r_point pk
    pure (.ok r)

/-- `dsa_verify`, src/eddsa.rs:39-102. -/
def dsa_verify (xof : Xof) (pubkey sig message : List Byte) : Rust (Except Err Bool) := do
  match ← eddsa_like_decode pubkey with
  | .error .InvalidLengthError => pure (.error .InvalidPubkeyLengthError)
  | .error .DecodeError => pure (.error .DecodePubkeyError)
  | .error _ => .error .explicit
  | .ok p => verifyWith xof p sig message

/-! ## src/goldilocks.rs -/

/-- `point_by_secret`, src/goldilocks.rs:31-39. -/
def point_by_secret (p : List Byte) : Rust Pt := do
  let digest ← clamp p
  let r ← decode_long digest
  let r ← halve r
  let r ← halve r
  precomputed_scalar_mul r

/-- `private_to_secret`, src/goldilocks.rs:41-46. -/
def private_to_secret (xof : Xof) (pk : List Byte) : Rust (List Byte) := do
  let sk := (sha3 xof pk 57).1
  let b ← idx sk 56
  setIdx sk 56 (b ||| 0x80)

/-- `secret_to_public`, src/goldilocks.rs:48-53. -/
def secret_to_public (sk : List Byte) : Rust (List Byte) := do
  let h ← point_by_secret sk
  eddsa_like_encode h

/-- `private_to_public`, src/goldilocks.rs:55-57. -/
def private_to_public (xof : Xof) (pk : List Byte) : Rust (List Byte) := do
  let sk ← private_to_secret xof pk
  secret_to_public sk

/-- The common part of the two signing functions, src/goldilocks.rs:69-95 and 107-133: from the public point, the scalar and the seed to the
signature. -/
def signTail (xof : Xof) (point : Pt) (sec : List W32) (seed message : List Byte) : Rust (List Byte) := do
  let nonce := (hash_with_dom xof (seed ++ message) 114).1
  let nonce_scalar ← decode_long nonce
  let nonce_scalar2 ← halve nonce_scalar
  let nonce_scalar2 ← halve nonce_scalar2
  let np ← precomputed_scalar_mul nonce_scalar2
  let nonce_point ← eddsa_like_encode np
  let enc ← eddsa_like_encode point
  let challenge := (hash_with_dom xof (nonce_point ++ enc ++ message) 114).1
  let challenge_scalar ← decode_long challenge
  let challenge_scalar ← mul challenge_scalar sec
  let challenge_scalar ← add challenge_scalar nonce_scalar
  let result ← copyInto (List.replicate 114 0) 0 57 nonce_point
  let e ← encode challenge_scalar
  copyInto result 57 114 e

/-- `sign_by_private`, src/goldilocks.rs:59-95. -/
def sign_by_private (xof : Xof) (pk message : List Byte) : Rust (List Byte) := do
  let secret := (sha3 xof pk 114).1
  let secret ← clamp secret
  let s ← slice secret 0 57
  let sk ← copyInto (List.replicate 57 0) 0 57 s
  let sec ← decode_long sk
  let s ← slice secret 57 114
  let seed ← copyInto (List.replicate 57 0) 0 57 s
  let point ← point_by_secret sk
  signTail xof point sec seed message

/-- `sign_with_secret_and_nonce`, src/goldilocks.rs:97-133. -/
def sign_with_secret_and_nonce (xof : Xof) (secret n message : List Byte) : Rust (List Byte) := do
  let s1 ← clamp secret
  let sec ← decode_long s1
  let pub_point ← point_by_secret secret
  signTail xof pub_point sec n message

/-- `ed448_derive_public`, src/goldilocks.rs:135-141. -/
def ed448_derive_public (xof : Xof) (pk : List Byte) : Rust (List Byte) := do
  let n ← subU 57 1
  let b ← idx pk n
  if b &&& 0x80 = 0 then private_to_public xof pk else secret_to_public pk

/-- `ed448_sign`, src/goldilocks.rs:143-152. -/
def ed448_sign (xof : Xof) (pk message : List Byte) : Rust (List Byte) := do
  let n ← subU 57 1
  let b ← idx pk n
  if b &&& 0x80 = 0 then sign_by_private xof pk message
  else do
    let digest ← clamp pk
    sign_with_secret_and_nonce xof digest digest message

/-- `ed448_verify`, src/goldilocks.rs:154-161. -/
def ed448_verify (xof : Xof) (pubkey sig message : List Byte) : Rust (Except Err Bool) :=
  if pubkey = List.replicate 57 0 ∨ sig = List.replicate 114 0 then pure (.error .InvalidSignatureError)
  else dsa_verify xof pubkey sig message

/-- `ed448_verify_with_error`, src/goldilocks.rs:163-179. -/
def ed448_verify_with_error (xof : Xof) (pubkey sig message : List Byte) : Rust (Except Err Unit) :=
  if pubkey = List.replicate 57 0 ∨ sig = List.replicate 114 0 then pure (.error .InvalidSignatureError)
  else do
    match ← dsa_verify xof pubkey sig message with
    | .error e => pure (.error e)
    | .ok is_ok => if !is_ok then pure (.error .InvalidSignatureError) else pure (.ok ())

end Ed448.Chk
