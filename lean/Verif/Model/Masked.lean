import Verif.Model.Leak

/-!
# Signing with a table look-up that reads every entry

Not code of the repository: a repair of the look-up of src/extended_point.rs:594-595 (`DECAF_PRECOMP_TABLE.lookup(index)`), whose
position depends on the secret scalar. The look-up is replaced by a loop over the 16 entries of the comb table, which reads all of them and
keeps one by the masks that the library has for other purposes (`is_zero_mask`, `constant_time_select`). The other functions are those of
`Model/Leak.lean`, unchanged, up to `ed448_derive_public` and `ed448_sign`; they have to be repeated because they call one another.
-/

namespace Ed448

namespace Leak.Masked

open Leak Ed448

/-- The repair: for `k` from 0 to 15, read entry `(j << 4) + k` and keep it if `k = tab`. Stands for lines 594-595 of
src/extended_point.rs. -/
def select (l : List TwistedNiels) (j n : Nat) (tab : W32) : Leak TwistedNiels :=
  forTo (1 <<< n) ⟨BIG_ZERO, BIG_ZERO, BIG_ZERO⟩ fun k acc => do
    let e ← lookup l ((j <<< n) + k)
    let mask := is_zero_mask (BitVec.ofNat 32 k ^^^ tab)
    let a ← BigNumber.constant_time_select e.a acc.a mask
    let b ← BigNumber.constant_time_select e.b acc.b mask
    let c ← BigNumber.constant_time_select e.c acc.c mask
    pure ⟨a, b, c⟩

/-- Selection of a table entry, src/extended_point.rs:582-596. -/
def combSelect (s : List W32) (i j : Nat) : Leak TwistedNiels := do
  let tab ← combTab s i j
  let n ← subU 5 1
  let invert ← chkI32 (tab.toInt / 2 ^ n - 1)
  let tab := tab ^^^ BitVec.ofInt 32 invert
  let m ← subU (1 <<< n) 1
  let tab := tab &&& BitVec.ofNat 32 m
  let np ← select DECAF_PRECOMP_TABLE j n tab
  conditional_negate np (BitVec.ofInt 32 invert)

/-- `precomputed_scalar_mul`, src/extended_point.rs:570-606. -/
def precomputed_scalar_mul (s : List W32) : Leak Pt := do
  let scalar2 ← add s scalar_adjustment.1
  let scalar2 ← halve scalar2
  forRev 18 Pt.zero fun i p => do
    let l ← subU 18 1
    branch (decide (i ≠ l))
    let p ← (if i ≠ l then double_internal p false else pure p)
    forTo 5 p fun j p => do
      let np ← combSelect scalar2 i j
      let l5 ← subU 5 1
      branch (decide (i ≠ l ∨ j ≠ 0))
      if i ≠ l ∨ j ≠ 0 then add_niels_to_extended p np (j == l5 && i != 0) else to_extended np

/-- `point_by_secret`, src/goldilocks.rs:31-39. -/
def point_by_secret (p : List Byte) : Leak Pt := do
  let digest ← clamp p
  let r ← decode_long digest
  let r ← halve r
  let r ← halve r
  precomputed_scalar_mul r

/-- `secret_to_public`, src/goldilocks.rs:48-53. -/
def secret_to_public (sk : List Byte) : Leak (List Byte) := do
  let h ← point_by_secret sk
  eddsa_like_encode h

/-- `private_to_public`, src/goldilocks.rs:55-57. -/
def private_to_public (xof : Xof) (pk : List Byte) : Leak (List Byte) := do
  let sk ← private_to_secret xof pk
  secret_to_public sk

/-- The common part of the two signing functions, src/goldilocks.rs:69-95 and 107-133: from the public point, the scalar and the seed to the
signature. -/
def signTail (xof : Xof) (point : Pt) (sec : List W32) (seed message : List Byte) : Leak (List Byte) := do
  let nonce ← hash_with_dom xof (seed ++ message) 114
  let nonce_scalar ← decode_long nonce
  let nonce_scalar2 ← halve nonce_scalar
  let nonce_scalar2 ← halve nonce_scalar2
  let np ← precomputed_scalar_mul nonce_scalar2
  let nonce_point ← eddsa_like_encode np
  let enc ← eddsa_like_encode point
  let challenge ← hash_with_dom xof (nonce_point ++ enc ++ message) 114
  let challenge_scalar ← decode_long challenge
  let challenge_scalar ← mul challenge_scalar sec
  let challenge_scalar ← add challenge_scalar nonce_scalar
  let result ← copyInto (List.replicate 114 0) 0 57 nonce_point
  let e ← encode challenge_scalar
  copyInto result 57 114 e

/-- `sign_by_private`, src/goldilocks.rs:59-95. -/
def sign_by_private (xof : Xof) (pk message : List Byte) : Leak (List Byte) := do
  let secret ← sha3 xof pk 114
  let secret ← clamp secret
  let s ← slice secret 0 57
  let sk ← copyInto (List.replicate 57 0) 0 57 s
  let sec ← decode_long sk
  let s ← slice secret 57 114
  let seed ← copyInto (List.replicate 57 0) 0 57 s
  let point ← point_by_secret sk
  signTail xof point sec seed message

/-- `sign_with_secret_and_nonce`, src/goldilocks.rs:97-133. -/
def sign_with_secret_and_nonce (xof : Xof) (secret n message : List Byte) : Leak (List Byte) := do
  let s1 ← clamp secret
  let sec ← decode_long s1
  let pub_point ← point_by_secret secret
  signTail xof pub_point sec n message

/-- `ed448_derive_public`, src/goldilocks.rs:135-141. -/
def ed448_derive_public (xof : Xof) (pk : List Byte) : Leak (List Byte) := do
  let n ← subU 57 1
  let b ← idx pk n
  branch (decide (b &&& 0x80 = 0))
  if b &&& 0x80 = 0 then private_to_public xof pk else secret_to_public pk

/-- `ed448_sign`, src/goldilocks.rs:143-152. -/
def ed448_sign (xof : Xof) (pk message : List Byte) : Leak (List Byte) := do
  let n ← subU 57 1
  let b ← idx pk n
  branch (decide (b &&& 0x80 = 0))
  if b &&& 0x80 = 0 then sign_by_private xof pk message
  else do
    let digest ← clamp pk
    sign_with_secret_and_nonce xof digest digest message

end Leak.Masked

end Ed448
