import Verif.Model.Goldilocks

/-!
# The functions of the library on a platform with `u`-bit `usize`

The other models read `usize` as on 64-bit platforms. Here every value of type `usize` that is computed from the data or from another integer type is a vector of `u` bits, for any `u`; conversions
to `usize` keep the low `u` bits. Simplifications: numbers of type `usize` that only count (`fill`, `j`, `k`, `position`, `contv`, `contp`, at most 115, and the lengths of slices, which are
`usize` values to begin with) stay natural numbers. Functions in which no other `usize` occurs are those of the base model.
-/

namespace Ed448.Platform

/-- `usize`, with `u` bits. -/
abbrev Usize (u : Nat) := BitVec u

/-- The inner loop of `dsa_like_deserialize`, src/bignumber.rs:613-621, with `mask = 0` as in the only call, src/extended_point.rs:527: `sj` is a `usize`, and `sj as Dword` is shifted. -/
def desFill (u : Nat) : Nat → Arr Byte 57 → Nat → Nat → W64 → Nat × Nat × W64
  | 0, _, fill, j, buffer => (fill, j, buffer)
  | k + 1, input, fill, j, buffer =>
    if h : fill < 28 ∧ j < 56 then
      let mask : Usize u := 0
      let sj : Usize u := (input.1[j]'(by have := input.2; omega)).setWidth u
      let sj : Usize u := if j = 56 - 1 then sj &&& ~~~mask else sj
      desFill u k input (fill + 8) (j + 1) (buffer ||| (sj.setWidth 64 <<< fill))
    else (fill, j, buffer)

/-- The loop of `dsa_like_deserialize`, src/bignumber.rs:612-634. -/
def desLoop (u : Nat) (input : Arr Byte 57) : List (Nat × W32) → Nat → Nat → W64 → W32 → List W32 × W64 × W32
  | [], _, _, buffer, scarry => ([], buffer, scarry)
  | (i, m) :: rest, fill, j, buffer, scarry =>
    let (fill, j, buffer) := desFill u 4 input fill j buffer
    let ni : W32 := if i ≥ 15 then lo32 buffer else lo32 (buffer &&& ((1 <<< 28) - 1))
    let fill := fill - 28
    let buffer := buffer >>> 28
    let scarry : W32 := ((scarry + ni - m) >>> 8) * 4
    let (ns, b, s) := desLoop u input rest fill j buffer scarry
    (ni :: ns, b, s)

/-- `dsa_like_deserialize(input, 0)`, src/bignumber.rs:604-639. -/
def dsa_like_deserialize (u : Nat) (input : Arr Byte 57) : BN × W32 :=
  let (n, buffer, scarry) := desLoop u input ((List.range 16).zip MODULUS) 0 0 0 0
  (BN.ofList n, is_zero_mask (lo32 buffer) &&& ~~~(is_zero_mask scarry))

/-- The bits of the current window, src/extended_point.rs:278-286. `i` is an `i32`, `i1` a `usize`. -/
def windowBits (u : Nat) (s : List W32) (i : Int) : Rust (W32 × W32) := do
  let i1 : Usize u := BitVec.ofInt u i
  let w ← idx s (i1 / 32#u).toNat
  let bits := w >>> (i1 % 32#u).toNat
  let bits ← if (i1 % 32#u).toNat ≥ (32#u - 5#u).toNat ∧ (i1 / 32#u).toNat < (14#u - 1#u).toNat then do
      let w' ← idx s (i1 / 32#u + 1#u).toNat
      pure (bits ^^^ (w' <<< (32#u - i1 % 32#u).toNat))
    else pure bits
  let window_mask : Usize u := (1#u <<< 5) - 1#u
  let bits := bits &&& window_mask.setWidth 32
  let inv := (bits >>> (5#u - 1#u).toNat) - 1
  pure (bits ^^^ inv, inv)

/-- The selection of a multiple, src/extended_point.rs:278-289, with the index `(bits as usize) & window_tmask`. -/
def selectMultiple (u : Nat) (multiples : List PNiels) (s : List W32) (i : Int) : Rust PNiels := do
  let (bits, inv) ← windowBits u s i
  let window_mask : Usize u := (1#u <<< 5) - 1#u
  let window_tmask : Usize u := window_mask >>> 1
  let p_neg ← idx multiples ((bits.setWidth u &&& window_tmask).toNat)
  pure { p_neg with n := p_neg.n.conditional_negate inv }

/-- The loop of `point_scalar_mul` after the first iteration, src/extended_point.rs:276-304, for `i = 5*k, ..., 5, 0`. -/
def scalarMulLoop (u : Nat) (multiples : List PNiels) (s : List W32) : Nat → Pt → Rust Pt
  | 0, out => pure out
  | k + 1, out => do
    let p_neg ← selectMultiple u multiples s (5 * (k : Int))
    let out := Pt.doubleTimes 4 out
    let out := out.double_internal false
    let out := out.add_projected_niels_to_extended p_neg false
    scalarMulLoop u multiples s k out

/-- `point_scalar_mul`, src/extended_point.rs:261-305. `(SCALAR_BITS - ((SCALAR_BITS - 1) % window) - 1) as i32` is 445. -/
def point_scalar_mul (u : Nat) (p : Pt) (s : Scalar) : Rust Pt := do
  let scalar1x := scalarAdd s scalar_adjustment
  let scalar1x := halve scalar1x
  let multiples ← p.prepare_fixed_window
  let p_neg ← selectMultiple u multiples scalar1x.1 445
  let out := p_neg.to_extended_point
  scalarMulLoop u multiples scalar1x.1 89 out

/-- `a >> 1` for `a = x as usize`, where `x` is an `i64`, src/extended_point.rs:351, 358, 375-390. -/
def halfIndex (u : Nat) (x : Int) : Nat := ((BitVec.ofInt u x : Usize u) >>> 1).toNat

/-- The digit of the variable scalar, src/extended_point.rs:374-383. -/
def addVar (u : Nat) (precmp_var : List PNiels) (i : Int) (ev : SmvtControl) (cp : Bool) (out : Pt) : Rust Pt :=
  if ev.addend > 0 then do
    let e ← idx precmp_var (halfIndex u ev.addend)
    pure (out.add_projected_niels_to_extended e (i != 0 && !cp))
  else do
    let e ← idx precmp_var (halfIndex u (-ev.addend))
    pure (out.sub_projected_niels_from_extended_point e (i != 0 && !cp))

/-- The digit of the fixed scalar, src/extended_point.rs:385-394. -/
def addPre (u : Nat) (i : Int) (ep : SmvtControl) (out : Pt) : Rust Pt :=
  if ep.addend > 0 then do
    let e ← idx DECAF_WNAF_TABLE (halfIndex u ep.addend)
    pure (out.add_niels_to_extended e (i != 0))
  else do
    let e ← idx DECAF_WNAF_TABLE (halfIndex u (-ep.addend))
    pure (out.sub_niels_from_extended_point e (i != 0))

/-- The loop of `point_double_scalamul_non_secret`, src/extended_point.rs:368-397. -/
def doubleScalarLoop (u : Nat) (control_var control_pre : List SmvtControl) (precmp_var : List PNiels) : Nat → Nat → Nat → Pt → Rust Pt
  | 0, _, _, out => pure out
  | k + 1, contv, contp, out => do
    let i : Int := k
    let ev ← idx control_var contv
    let ep ← idx control_pre contp
    let cv : Bool := i == ev.power
    let cp : Bool := i == ep.power
    let out := out.double_internal (i != 0 && !(cv || cp))
    let out ← cond cv (addVar u precmp_var i ev cp out) (pure out)
    let out ← cond cp (addPre u i ep out) (pure out)
    doubleScalarLoop u control_var control_pre precmp_var k (cond cv (contv + 1) contv) (cond cp (contp + 1) contp) out

/-- The first digits, src/extended_point.rs:340-361. `index` is an `i64` that is shifted before it is converted. -/
def firstDigits (u : Nat) (v0 p0 : SmvtControl) (precmp_var : List PNiels) : Rust (Pt × Int × Nat × Nat) :=
  let index : Usize u := BitVec.ofInt u (v0.addend / 2)
  let i := v0.power
  if i > p0.power then do
    let e ← idx precmp_var index.toNat
    pure (e.to_extended_point, i, 1, 0)
  else if i = p0.power ∧ i ≥ 0 then do
    let e ← idx precmp_var index.toNat
    let f ← idx DECAF_WNAF_TABLE (halfIndex u p0.addend)
    pure (e.to_extended_point.add_niels_to_extended f (i != 0), i, 1, 1)
  else do
    let f ← idx DECAF_WNAF_TABLE (halfIndex u p0.addend)
    pure (f.to_extended, p0.power, 0, 1)

/-- `point_double_scalamul_non_secret`, src/extended_point.rs:307-402. -/
def point_double_scalamul_non_secret (u : Nat) (p : Pt) (scalar_pre scalar_var : Scalar) : Rust Pt := do
  let control_pre ← recode_wnaf (List.replicate 77 ⟨0, 0⟩) scalar_pre 5
  let control_var ← recode_wnaf (List.replicate 115 ⟨0, 0⟩) scalar_var 3
  let precmp_var ← decaf_prepare_wnaf_table p
  let v0 ← idx control_var 0
  let p0 ← idx control_pre 0
  let r ← firstDigits u v0 p0 precmp_var
  if r.2.1 < 0 then pure Pt.identity
  else doubleScalarLoop u control_var control_pre precmp_var r.2.1.toNat r.2.2.1 r.2.2.2 r.1

/-- The checks and the division by 4, src/extended_point.rs:556-567. -/
def decodeFinish (u : Nat) (p : Pt) (succ : W32) : Rust (Except Err Pt) := do
  let ok ← p.is_on_curve
  if !ok || succ == 0 then pure (.error .DecodeError)
  else do
    let scalar_one_forth := halve (halve SCALAR_ONE)
    let p ← point_scalar_mul u p scalar_one_forth
    pure (.ok p)

/-- `eddsa_like_decode`, src/extended_point.rs:513-568, for a 57-byte string. -/
def eddsaDecode57 (u : Nat) (src_org : Arr Byte 57) : Rust (Except Err Pt) := do
  let b56 : Byte := src_org.1[56]'(by simp [src_org.2])
  let low := ~~~(is_zero_mask (0x80 &&& b56.setWidth 32))
  let b56 := b56 &&& (~~~(0x80 : W32)).setWidth 8
  let src : Arr Byte 57 := ⟨src_org.1.set 56 b56, by simp [src_org.2]⟩
  let succ := is_zero_mask (b56.setWidth 32)
  let d := dsa_like_deserialize u src
  let succ := succ &&& d.2
  let x ← decodeRoot d.1 low
  decodeFinish u (decodeIsogeny x d.1) succ

/-- `eddsa_like_decode`, src/extended_point.rs:513-568. -/
def eddsa_like_decode (u : Nat) (src_org : List Byte) : Rust (Except Err Pt) :=
  if h : src_org.length = 57 then eddsaDecode57 u ⟨src_org, h⟩
  else pure (.error .InvalidLengthError)

/-- The loop over the teeth, src/extended_point.rs:582-588: `bit` is a `usize`. -/
def combTab (u : Nat) (s : List W32) (i j : Nat) : List Nat → W32 → Rust W32
  | [], tab => pure tab
  | k :: ks, tab => do
    let bit : Usize u := BitVec.ofNat u i + 18#u * (BitVec.ofNat u k + BitVec.ofNat u j * 5#u)
    let tab ← if bit < 446#u then do
        let w ← idx s (bit / 32#u).toNat
        pure (tab ||| (((w >>> (bit % 32#u).toNat) &&& 1) <<< k))
      else pure tab
    combTab u s i j ks tab

/-- Selection of a table entry, src/extended_point.rs:582-596: the index `(j << (DECAF_COMB_TEETH - 1)) + (tab as usize)`. -/
def combSelect (u : Nat) (s : List W32) (i j : Nat) : Rust TwistedNiels := do
  let tab ← combTab u s i j [0, 1, 2, 3, 4] 0
  let invert : W32 := (tab.sshiftRight 4) - 1
  let tab := tab ^^^ invert
  let tab := tab &&& (((1 : W32) <<< 4) - 1)
  let index : Usize u := (BitVec.ofNat u j <<< 4) + tab.setWidth u
  let np ← idx DECAF_PRECOMP_TABLE index.toNat
  pure (np.conditional_negate invert)

/-- The loop over the combs, src/extended_point.rs:581-602. -/
def combInner (u : Nat) (s : List W32) (i : Nat) : List Nat → Pt → Rust Pt
  | [], p => pure p
  | j :: js, p => do
    let np ← combSelect u s i j
    let p := if i ≠ 17 ∨ j ≠ 0 then p.add_niels_to_extended np (j == 4 && i != 0)
      else np.to_extended
    combInner u s i js p

/-- The loop `for i in (0..18).rev()`, src/extended_point.rs:576-603. -/
def combOuter (u : Nat) (s : List W32) : Nat → Pt → Rust Pt
  | 0, p => pure p
  | i + 1, p => do
    let p := if i ≠ 17 then p.double_internal false else p
    let p ← combInner u s i [0, 1, 2, 3, 4] p
    combOuter u s i p

/-- `precomputed_scalar_mul`, src/extended_point.rs:570-606. -/
def precomputed_scalar_mul (u : Nat) (s : Scalar) : Rust Pt :=
  let scalar2 := scalarAdd s scalar_adjustment
  let scalar2 := halve scalar2
  combOuter u scalar2.1 18 Pt.zero

/-- The two points compared at the end of `dsa_verify`, src/eddsa.rs:86-101. -/
def verifyPoints (u : Nat) (xof : Xof) (p p2 r_point : Pt) (sig1 sig2 : Arr Byte 57) (message : List Byte) : Rust (Pt × Pt) := do
  let r_point ← point_scalar_mul u r_point SCALAR_FOUR
  let challenge := hash_with_dom xof (sig1.1 ++ p.eddsa_like_encode.1 ++ message) 114
  let challenge_scalar := decode_long challenge.1
  let challenge_scalar := scalarSub SCALAR_ZERO challenge_scalar
  let responce_scalar := decode_long sig2.1
  let pk ← point_double_scalamul_non_secret u p2 responce_scalar challenge_scalar
  pure (r_point, pk)

/-- `dsa_verify`, src/eddsa.rs:39-102. -/
def dsa_verify (u : Nat) (xof : Xof) (pubkey sig message : List Byte) : Rust (Except Err Bool) := do
  match ← eddsa_like_decode u pubkey with
  | .error .InvalidLengthError => pure (.error .InvalidPubkeyLengthError)
  | .error .DecodeError => pure (.error .DecodePubkeyError)
  | .error _ => .error .explicit
  | .ok p =>
    let p2 ← point_scalar_mul u p SCALAR_FOUR
    let sig1 ← sliceArr sig 0 57
    let sig2 ← sliceArr sig 57 57
    match ← eddsa_like_decode u sig1.1 with
    | .error .InvalidLengthError => pure (.error .InvalidSignatureLengthError)
    | .error .DecodeError => pure (.error .DecodeSignatureError)
    | .error _ => .error .explicit
    | .ok r_point =>
      let r ← verifyPoints u xof p p2 r_point sig1 sig2 message
      pure (.ok (r.1.mod_equal r.2))

/-- `point_by_secret`, src/goldilocks.rs:31-39. -/
def point_by_secret (u : Nat) (p : Arr Byte 57) : Rust Pt :=
  let digest := clamp p
  let r := decode_long digest.1
  let r := halve r
  let r := halve r
  precomputed_scalar_mul u r

/-- `secret_to_public`, src/goldilocks.rs:48-53. -/
def secret_to_public (u : Nat) (sk : Arr Byte 57) : Rust (Arr Byte 57) := do
  let h ← point_by_secret u sk
  pure h.eddsa_like_encode

/-- `private_to_public`, src/goldilocks.rs:55-57. -/
def private_to_public (u : Nat) (xof : Xof) (pk : Arr Byte 57) : Rust (Arr Byte 57) :=
  secret_to_public u (private_to_secret xof pk)

/-- `sign_by_private`, src/goldilocks.rs:59-95. -/
def sign_by_private (u : Nat) (xof : Xof) (pk : Arr Byte 57) (message : List Byte) : Rust (Arr Byte 114) := do
  let secret := sha3 xof pk.1 114
  let secret := clamp secret
  let sk : Arr Byte 57 := ⟨secret.1.take 57, by simp [secret.2]⟩
  let sec := decode_long sk.1
  let seed := secret.1.drop 57
  let point ← point_by_secret u sk
  let nonce := hash_with_dom xof (seed ++ message) 114
  let nonce_scalar := decode_long nonce.1
  let nonce_scalar2 := halve nonce_scalar
  let nonce_scalar2 := halve nonce_scalar2
  let np ← precomputed_scalar_mul u nonce_scalar2
  let nonce_point := np.eddsa_like_encode
  let challenge := hash_with_dom xof (nonce_point.1 ++ point.eddsa_like_encode.1 ++ message) 114
  let challenge_scalar := decode_long challenge.1
  let challenge_scalar := scalarMul challenge_scalar sec
  let challenge_scalar := scalarAdd challenge_scalar nonce_scalar
  pure (joinSig nonce_point (scalarEncode challenge_scalar))

/-- `sign_with_secret_and_nonce`, src/goldilocks.rs:97-133. -/
def sign_with_secret_and_nonce (u : Nat) (xof : Xof) (secret n : Arr Byte 57) (message : List Byte) : Rust (Arr Byte 114) := do
  let s1 := clamp secret
  let sec := decode_long s1.1
  let pub_point ← point_by_secret u secret
  let nonce := hash_with_dom xof (n.1 ++ message) 114
  let nonce_scalar := decode_long nonce.1
  let nonce_scalar2 := halve nonce_scalar
  let nonce_scalar2 := halve nonce_scalar2
  let np ← precomputed_scalar_mul u nonce_scalar2
  let nonce_point := np.eddsa_like_encode
  let challenge := hash_with_dom xof (nonce_point.1 ++ pub_point.eddsa_like_encode.1 ++ message) 114
  let challenge_scalar := decode_long challenge.1
  let challenge_scalar := scalarMul challenge_scalar sec
  let challenge_scalar := scalarAdd challenge_scalar nonce_scalar
  pure (joinSig nonce_point (scalarEncode challenge_scalar))

/-- `ed448_derive_public`, src/goldilocks.rs:135-141. -/
def ed448_derive_public (u : Nat) (xof : Xof) (pk : Arr Byte 57) : Rust (Arr Byte 57) :=
  if topBitClear pk then private_to_public u xof pk else secret_to_public u pk

/-- `ed448_sign`, src/goldilocks.rs:143-152. -/
def ed448_sign (u : Nat) (xof : Xof) (pk : Arr Byte 57) (message : List Byte) : Rust (Arr Byte 114) :=
  if topBitClear pk then sign_by_private u xof pk message
  else
    let digest := clamp pk
    sign_with_secret_and_nonce u xof digest digest message

/-- `ed448_verify`, src/goldilocks.rs:154-161. -/
def ed448_verify (u : Nat) (xof : Xof) (pubkey sig message : List Byte) : Rust (Except Err Bool) :=
  if pubkey = List.replicate 57 0 ∨ sig = List.replicate 114 0 then
    pure (.error .InvalidSignatureError)
  else dsa_verify u xof pubkey sig message

/-- `ed448_verify_with_error`, src/goldilocks.rs:163-179. -/
def ed448_verify_with_error (u : Nat) (xof : Xof) (pubkey sig message : List Byte) : Rust (Except Err Unit) :=
  if pubkey = List.replicate 57 0 ∨ sig = List.replicate 114 0 then
    pure (.error .InvalidSignatureError)
  else do
    match ← dsa_verify u xof pubkey sig message with
    | .error e => pure (.error e)
    | .ok is_ok => if !is_ok then pure (.error .InvalidSignatureError) else pure (.ok ())

end Ed448.Platform
