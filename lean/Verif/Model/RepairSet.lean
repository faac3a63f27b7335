import Verif.Model.Repaired

/-!
# The verifier with any choice of the six repairs

This file does not model code of /repo, except for the choice of no repair, which is the existing code. Each definition is the one of
`Model/Repaired.lean` if the repair in question is chosen, and the model of the existing code otherwise.
-/

namespace Ed448

/-- A choice among the six repairs listed in `Model/Repaired.lean`. -/
structure Repairs where
  /-- 1: `decaf_equal` (src/bignumber.rs:519-541) looks at limb 15. -/
  limb15 : Bool
  /-- 2: `dsa_like_deserialize` (src/bignumber.rs:604-639) compares with p. -/
  modulus : Bool
  /-- 3: `eddsa_like_decode` (src/extended_point.rs:513-568) rejects the sign bit for x = 0. -/
  signOfZero : Bool
  /-- 4: `dsa_verify` (src/eddsa.rs:39-102) checks the length of the signature. -/
  sigLength : Bool
  /-- 5: `dsa_verify` checks that the second half is below the group order. -/
  range : Bool
  /-- 6: `dsa_verify` hashes the key as given. -/
  keyHash : Bool
  deriving DecidableEq

namespace Repairs

/-- All repairs. -/
def all : Repairs := ⟨true, true, true, true, true, true⟩

/-- No repair. -/
def none : Repairs := ⟨false, false, false, false, false, false⟩

/-- `decaf_equal`, src/bignumber.rs:519-541. -/
def decaf_equal (f : Repairs) (n x : BN) : W32 := if f.limb15 then Repaired.decaf_equal n x else Ed448.decaf_equal n x

/-- `mod_equal`, src/extended_point.rs:124-130. -/
def mod_equal (f : Repairs) (p p2 : Pt) : Bool := if f.limb15 then Repaired.mod_equal p p2 else p.mod_equal p2

/-- `is_on_curve`, src/extended_point.rs:214-230. -/
def is_on_curve (f : Repairs) (p : Pt) : Rust Bool := if f.limb15 then Repaired.is_on_curve p else p.is_on_curve

/-- `dsa_like_deserialize(input, 0)`, src/bignumber.rs:604-639. -/
def dsa_like_deserialize (f : Repairs) (input : Arr Byte 57) : BN × W32 :=
  if f.modulus then Repaired.dsa_like_deserialize input else Ed448.dsa_like_deserialize input

/-- The checks and the division by 4, src/extended_point.rs:556-567. -/
def decodeFinish (f : Repairs) (p : Pt) (succ : W32) : Rust (Except Err Pt) := do
  let ok ← f.is_on_curve p
  if !ok || succ == 0 then pure (.error .DecodeError)
  else do
    let scalar_one_forth := halve (halve SCALAR_ONE)
    let p ← p.point_scalar_mul scalar_one_forth
    pure (.ok p)

/-- `eddsa_like_decode`, src/extended_point.rs:513-568, for a 57-byte string. -/
def eddsaDecode57 (f : Repairs) (src_org : Arr Byte 57) : Rust (Except Err Pt) := do
  let b56 : Byte := src_org.1[56]'(by simp [src_org.2])
  let low := ~~~(is_zero_mask (0x80 &&& b56.setWidth 32))
  let b56 := b56 &&& (~~~(0x80 : W32)).setWidth 8
  let src : Arr Byte 57 := ⟨src_org.1.set 56 b56, by simp [src_org.2]⟩
  let succ := is_zero_mask (b56.setWidth 32)
  let d := f.dsa_like_deserialize src
  let succ := succ &&& d.2
  let x ← decodeRoot d.1 low
  let succ := if f.signOfZero then succ &&& ~~~(low &&& f.decaf_equal x BIG_ZERO) else succ
  f.decodeFinish (decodeIsogeny x d.1) succ

/-- `eddsa_like_decode`, src/extended_point.rs:513-568, with the length check of lines 515-517. -/
def eddsa_like_decode (f : Repairs) (src_org : List Byte) : Rust (Except Err Pt) :=
  if h : src_org.length = 57 then f.eddsaDecode57 ⟨src_org, h⟩
  else pure (.error .InvalidLengthError)

/-- The two points compared at the end of `dsa_verify`, src/eddsa.rs:86-101. -/
def verifyPoints (f : Repairs) (xof : Xof) (pubkey : List Byte) (p p2 r_point : Pt) (sig1 sig2 : Arr Byte 57) (message : List Byte) : Rust (Pt × Pt) :=
  if f.keyHash then Repaired.verifyPoints xof pubkey p2 r_point sig1 sig2 message else Ed448.verifyPoints xof p p2 r_point sig1 sig2 message

/-- `dsa_verify`, src/eddsa.rs:39-102. -/
def dsa_verify (f : Repairs) (xof : Xof) (pubkey sig message : List Byte) : Rust (Except Err Bool) := do
  match ← f.eddsa_like_decode pubkey with
  | .error .InvalidLengthError => pure (.error .InvalidPubkeyLengthError)
  | .error .DecodeError => pure (.error .DecodePubkeyError)
  | .error _ => .error .explicit
  | .ok p =>
    let p2 ← p.point_scalar_mul SCALAR_FOUR
    if f.sigLength ∧ sig.length ≠ 114 then pure (.error .InvalidSignatureLengthError)
    else do
      let sig1 ← sliceArr sig 0 57
      let sig2 ← sliceArr sig 57 57
      match ← f.eddsa_like_decode sig1.1 with
      | .error .InvalidLengthError => pure (.error .InvalidSignatureLengthError)
      | .error .DecodeError => pure (.error .DecodeSignatureError)
      | .error _ => .error .explicit
      | .ok r_point =>
        if f.range ∧ (scalarEncode (decode_long sig2.1)).1 ≠ sig2.1 then pure (.ok false)
        else do
          let r ← f.verifyPoints xof pubkey p p2 r_point sig1 sig2 message
          pure (.ok (f.mod_equal r.1 r.2))

/-- `ed448_verify`, src/goldilocks.rs:154-161. -/
def ed448_verify (f : Repairs) (xof : Xof) (pubkey sig message : List Byte) : Rust (Except Err Bool) :=
  if pubkey = List.replicate 57 0 ∨ sig = List.replicate 114 0 then
    pure (.error .InvalidSignatureError)
  else f.dsa_verify xof pubkey sig message

end Repairs

end Ed448
