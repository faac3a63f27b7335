import Verif.Model.Goldilocks

/-!
# The verifier after six repairs

This file does not model code of /repo. It is the model of `ed448_verify` with six changes, each at the place named in the comment of the
definition; everything else is the model of the existing code. `Properties/Repaired.lean` proves that with these changes the properties
hold that are false of the existing code.

1. `decaf_equal` (src/bignumber.rs:519-541) looks at limb 15 too.
2. `dsa_like_deserialize` (src/bignumber.rs:604-639) compares with the limbs of p and uses a signed borrow.
3. `eddsa_like_decode` (src/extended_point.rs:513-568) rejects the sign bit for x = 0.
4. `dsa_verify` (src/eddsa.rs:39-102) rejects signatures whose length is not 114 before it cuts them in two.
5. `dsa_verify` rejects a second half that is not the encoding of a reduced scalar.
6. `dsa_verify` hashes the key as given, not the re-encoded point.
-/

namespace Ed448.Repaired

/-- `decaf_equal`, src/bignumber.rs:519-541, with limb 15 (repair 1). -/
def decaf_equal (n x : BN) : W32 :=
  let y := sub n x
  let y := strong_reduce y
  let ret : W32 := 0
  let ret := ret ||| y.l0
  let ret := ret ||| y.l1
  let ret := ret ||| y.l2
  let ret := ret ||| y.l3
  let ret := ret ||| y.l4
  let ret := ret ||| y.l5
  let ret := ret ||| y.l6
  let ret := ret ||| y.l7
  let ret := ret ||| y.l8
  let ret := ret ||| y.l9
  let ret := ret ||| y.l10
  let ret := ret ||| y.l11
  let ret := ret ||| y.l12
  let ret := ret ||| y.l13
  let ret := ret ||| y.l14
  let ret := ret ||| y.l15
  is_zero_mask ret

/-- `mod_equal`, src/extended_point.rs:124-130, with the repaired comparison. -/
def mod_equal (p p2 : Pt) : Bool :=
  let a := mul p.y p2.x
  let b := mul p.x p2.y
  let valid := decaf_equal a b
  valid == 0xffffffff

/-- `is_on_curve`, src/extended_point.rs:214-230, with the repaired comparison. -/
def is_on_curve (p : Pt) : Rust Bool := do
  let a := mul p.x p.y
  let b := mul p.z p.t
  let valid := decaf_equal a b
  let a := square p.x
  let b := square p.y
  let a := sub b a
  let b := square p.t
  let c ← mul_w b (BitVec.ofInt 64 (1 - EDWARDS_D))
  let b := square p.z
  let b := sub b c
  let valid := valid &&& decaf_equal a b
  let valid := valid &&& ~~~(decaf_equal p.z BIG_ZERO)
  pure (valid == 0xffffffff)

/-- The limbs of p in base 2^28, in place of `MODULUS`, src/constants32.rs:65-68 (repair 2). -/
def MODULUS : List W32 :=
  [0xfffffff, 0xfffffff, 0xfffffff, 0xfffffff, 0xfffffff, 0xfffffff, 0xfffffff, 0xfffffff,
    0xffffffe, 0xfffffff, 0xfffffff, 0xfffffff, 0xfffffff, 0xfffffff, 0xfffffff, 0xfffffff]

/-- `scarry = (scarry + n[i] - MODULUS[i]) >> 28`, with an arithmetic shift of an `i64`, in place of src/bignumber.rs:631-633 (repair 2).
The value is -1 or 0 and is modelled as an integer; the loop is separated from the one that collects the limbs. -/
def scarryLoop : List W32 → List W32 → Int → Int
  | n :: ns, m :: ms, s => scarryLoop ns ms ((s + (n.toNat : Int) - (m.toNat : Int)) / 2 ^ 28)
  | _, _, s => s

/-- `dsa_like_deserialize(input, 0)`, src/bignumber.rs:604-639, with the repaired comparison (repair 2). The limbs are those of the
existing code. -/
def dsa_like_deserialize (input : Arr Byte 57) : BN × W32 :=
  let n := (Ed448.dsa_like_deserialize input).1
  (n, if scarryLoop n.toList MODULUS 0 = 0 then 0 else 0xffffffff)

/-- The checks and the division by 4, src/extended_point.rs:556-567, with the repaired comparison. -/
def decodeFinish (p : Pt) (succ : W32) : Rust (Except Err Pt) := do
  let ok ← is_on_curve p
  if !ok || succ == 0 then pure (.error .DecodeError)
  else do
    let scalar_one_forth := halve (halve SCALAR_ONE)
    let p ← p.point_scalar_mul scalar_one_forth
    pure (.ok p)

/-- `eddsa_like_decode`, src/extended_point.rs:513-568, for a 57-byte string: `low` is set only if the sign bit is, and then x must not
be zero (repair 3). -/
def eddsaDecode57 (src_org : Arr Byte 57) : Rust (Except Err Pt) := do
  let b56 : Byte := src_org.1[56]'(by simp [src_org.2])
  let low := ~~~(is_zero_mask (0x80 &&& b56.setWidth 32))
  let b56 := b56 &&& (~~~(0x80 : W32)).setWidth 8
  let src : Arr Byte 57 := ⟨src_org.1.set 56 b56, by simp [src_org.2]⟩
  let succ := is_zero_mask (b56.setWidth 32)
  let d := dsa_like_deserialize src
  let succ := succ &&& d.2
  let x ← decodeRoot d.1 low
  let succ := succ &&& ~~~(low &&& decaf_equal x BIG_ZERO)
  decodeFinish (decodeIsogeny x d.1) succ

/-- `eddsa_like_decode`, src/extended_point.rs:513-568, with the length check of lines 515-517. -/
def eddsa_like_decode (src_org : List Byte) : Rust (Except Err Pt) :=
  if h : src_org.length = 57 then eddsaDecode57 ⟨src_org, h⟩
  else pure (.error .InvalidLengthError)

/-- The two points compared at the end of `dsa_verify`, src/eddsa.rs:86-101, with the key hashed as given (repair 6). -/
def verifyPoints (xof : Xof) (pubkey : List Byte) (p2 r_point : Pt) (sig1 sig2 : Arr Byte 57) (message : List Byte) : Rust (Pt × Pt) := do
  let r_point ← r_point.point_scalar_mul SCALAR_FOUR
  let challenge := hash_with_dom xof (sig1.1 ++ pubkey ++ message) 114
  let challenge_scalar := decode_long challenge.1
  let challenge_scalar := scalarSub SCALAR_ZERO challenge_scalar
  let responce_scalar := decode_long sig2.1
  let pk ← p2.point_double_scalamul_non_secret responce_scalar challenge_scalar
  pure (r_point, pk)

/-- `dsa_verify`, src/eddsa.rs:39-102, with repairs 4 and 5. -/
def dsa_verify (xof : Xof) (pubkey sig message : List Byte) : Rust (Except Err Bool) := do
  match ← eddsa_like_decode pubkey with
  | .error .InvalidLengthError => pure (.error .InvalidPubkeyLengthError)
  | .error .DecodeError => pure (.error .DecodePubkeyError)
  | .error _ => .error .explicit
  | .ok p =>
    let p2 ← p.point_scalar_mul SCALAR_FOUR
    if sig.length ≠ 114 then pure (.error .InvalidSignatureLengthError)
    else do
      let sig1 ← sliceArr sig 0 57
      let sig2 ← sliceArr sig 57 57
      match ← eddsa_like_decode sig1.1 with
      | .error .InvalidLengthError => pure (.error .InvalidSignatureLengthError)
      | .error .DecodeError => pure (.error .DecodeSignatureError)
      | .error _ => .error .explicit
      | .ok r_point =>
        if (scalarEncode (decode_long sig2.1)).1 ≠ sig2.1 then pure (.ok false)
        else do
          let r ← verifyPoints xof pubkey p2 r_point sig1 sig2 message
          pure (.ok (mod_equal r.1 r.2))

/-- `ed448_verify`, src/goldilocks.rs:154-161, with the repaired `dsa_verify`. -/
def ed448_verify (xof : Xof) (pubkey sig message : List Byte) : Rust (Except Err Bool) :=
  if pubkey = List.replicate 57 0 ∨ sig = List.replicate 114 0 then
    pure (.error .InvalidSignatureError)
  else dsa_verify xof pubkey sig message

end Ed448.Repaired
