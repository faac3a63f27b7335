import Verif.Model.Goldilocks

/-!
# How much work the functions do

The functions of `Model/BigNumber.lean`, `Model/ExtendedPoint.lean`, `Model/Eddsa.lean` and `Model/Goldilocks.lean` once more, counting field
multiplications and recording the lengths of the hashed strings. The text of the functions is that of the four files, with the two dead assignments at
the end of `isr` put back. Not counted: additions and selections in the field, arithmetic of scalars, recoding of scalars and copying of bytes; outside the
functions below these are loops with constant bounds, apart from copying the message. `Verif/Cost/Result.lean` proves that the results are those of the
functions without the count.
-/

namespace Ed448

/-- A computation with its cost. -/
structure Cost (α : Type) where
  /-- Multiplications and squarings of field elements and multiplications of field elements by a word. -/
  mults : Nat
  /-- The lengths of the strings given to SHAKE256. -/
  hashed : List Nat
  /-- What was computed. -/
  result : Rust α

namespace Cost

/-- The cost of the second computation is added to that of the first. -/
def andThen {α β : Type} (x : Cost α) (f : α → Cost β) : Cost β :=
  match x.result with
  | .ok a => ⟨x.mults + (f a).mults, x.hashed ++ (f a).hashed, (f a).result⟩
  | .error e => ⟨x.mults, x.hashed, .error e⟩

instance : Monad Cost where
  pure a := ⟨0, [], .ok a⟩
  bind := andThen

/-- A computation that costs nothing. -/
def free {α : Type} (x : Rust α) : Cost α := ⟨0, [], x⟩

/-- `square`, src/bignumber.rs:214-216. -/
def square (x : BN) : Cost BN := ⟨1, [], .ok (Ed448.square x)⟩

/-- `mul`, src/bignumber.rs:218-220. -/
def mul (x y : BN) : Cost BN := ⟨1, [], .ok (Ed448.mul x y)⟩

/-- `mul_w`, src/bignumber.rs:222-339. -/
def mul_w (x : BN) (w : W64) : Cost BN := ⟨1, [], Ed448.mul_w x w⟩

/-- `sha3`, src/eddsa.rs:19-24. -/
def sha3 (xof : Xof) (input : List Byte) (n : Nat) : Cost (Arr Byte n) := ⟨0, [input.length], .ok (Ed448.sha3 xof input n)⟩

/-- `hash_with_dom`, src/eddsa.rs:26-35. -/
def hash_with_dom (xof : Xof) (input : List Byte) (n : Nat) : Cost (Arr Byte n) := sha3 xof (domPrefix ++ input) n

/-! ## src/bignumber.rs -/

/-- `mul_with_signed_curve_constant`, src/bignumber.rs:341-347. -/
def mul_with_signed_curve_constant (x : BN) (c : Int) : Cost BN :=
  if c > 0 then mul_w x (BitVec.ofInt 64 c)
  else do
    let r ← mul_w x (BitVec.ofInt 64 (-c))
    pure (sub BIG_ZERO r)

/-- `k` rounds of `n = square(&square(&n))`: the `while` loop of `square_n`, src/bignumber.rs:114-117. -/
def squarePairs : Nat → BN → Cost BN
  | 0, n => pure n
  | k + 1, n => do
    let n ← square n
    let n ← square n
    squarePairs k n

/-- `square_n`, src/bignumber.rs:105-119. -/
def square_n (x : BN) (y : Nat) : Cost BN :=
  if y % 2 = 1 then do
    let n ← square x
    squarePairs ((y - 1) / 2) n
  else do
    let n ← square x
    let n ← square n
    squarePairs ((y - 2) / 2) n

/-- `isr`, src/bignumber.rs:73-103, with the two dead assignments at the end. -/
def isr (x : BN) : Cost BN := do
  let l1 ← square x
  let l2 ← mul x l1
  let l1 ← square l2
  let l2 ← mul x l1
  let l1 ← square_n l2 3
  let l0 ← mul l2 l1
  let l1 ← square_n l0 3
  let l0 ← mul l2 l1
  let l2 ← square_n l0 9
  let l1 ← mul l0 l2
  let l0 ← square l1
  let l2 ← mul x l0
  let l0 ← square_n l2 18
  let l2 ← mul l1 l0
  let l0 ← square_n l2 37
  let l1 ← mul l2 l0
  let l0 ← square_n l1 37
  let l1 ← mul l2 l0
  let l0 ← square_n l1 111
  let l2 ← mul l1 l0
  let l0 ← square l2
  let l1 ← mul x l0
  let l0 ← square_n l1 223
  let l1 ← mul l2 l0
  let l2 ← square l1
  let _ ← mul l2 x
  pure l1

/-- `invert`, src/bignumber.rs:64-70. -/
def invert (x : BN) : Cost BN := do
  let t1 ← square x
  let t2 ← isr t1
  let t1 ← square t2
  mul t1 x

/-! ## src/extended_point.rs -/

/-- `TwistedProjectedNiels::to_extended_point`, src/extended_point.rs:65-76. -/
def to_extended_point (p : PNiels) : Cost Pt := do
  let eu := add p.n.b p.n.a
  let qy := sub p.n.b p.n.a
  let qt ← mul qy eu
  let qx ← mul p.z qy
  let qy ← mul p.z eu
  let qz ← square p.z
  pure ⟨qx, qy, qz, qt⟩

/-- `double_internal`, src/extended_point.rs:102-122. -/
def double_internal (p : Pt) (before_double : Bool) : Cost Pt := do
  let c ← square p.x
  let a ← square p.y
  let d := add_raw c a
  let t := add_raw p.x p.y
  let b ← square t
  let b := sub_x_bias b d 3
  let t := sub a c
  let x ← square p.z
  let z := add_raw x x
  let a := sub_x_bias z t 4
  let x ← mul a b
  let z ← mul t a
  let y ← mul t d
  let t ← if !before_double then mul b d else pure t
  pure ⟨x, y, z, t⟩

/-- `mod_equal`, src/extended_point.rs:124-130. -/
def mod_equal (p p2 : Pt) : Cost Bool := do
  let a ← mul p.y p2.x
  let b ← mul p.x p2.y
  let valid := decaf_equal a b
  pure (valid == 0xffffffff)

/-- `add_niels_to_extended`, src/extended_point.rs:132-148. -/
def add_niels_to_extended (p : Pt) (np : TwistedNiels) (before_double : Bool) : Cost Pt := do
  let b := sub p.y p.x
  let a ← mul np.a b
  let b := add_raw p.x p.y
  let y ← mul np.b b
  let x ← mul np.c p.t
  let c := add_raw a y
  let b := sub y a
  let y := sub p.z x
  let a := add_raw x p.z
  let z ← mul a y
  let x ← mul y b
  let y ← mul a c
  let t ← if !before_double then mul b c else pure p.t
  pure ⟨x, y, z, t⟩

/-- `sub_niels_from_extended_point`, src/extended_point.rs:150-166. -/
def sub_niels_from_extended_point (p : Pt) (np : TwistedNiels) (before_double : Bool) : Cost Pt := do
  let b := sub p.y p.x
  let a ← mul np.b b
  let b := add_raw p.x p.y
  let y ← mul np.a b
  let x ← mul np.c p.t
  let c := add_raw a y
  let b := sub y a
  let y := add_raw p.z x
  let a := sub p.z x
  let z ← mul a y
  let x ← mul y b
  let y ← mul a c
  let t ← if !before_double then mul b c else pure p.t
  pure ⟨x, y, z, t⟩

/-- `add_projected_niels_to_extended`, src/extended_point.rs:168-176. -/
def add_projected_niels_to_extended (p : Pt) (np : PNiels) (before_double : Bool) : Cost Pt := do
  let tmp ← mul p.z np.z
  add_niels_to_extended { p with z := tmp } np.n before_double

/-- `sub_projected_niels_from_extended_point`, src/extended_point.rs:178-186. -/
def sub_projected_niels_from_extended_point (p : Pt) (p2 : PNiels) (before_double : Bool) : Cost Pt := do
  let tmp ← mul p.z p2.z
  sub_niels_from_extended_point { p with z := tmp } p2.n before_double

/-- `eddsa_like_encode`, src/extended_point.rs:188-212. -/
def eddsa_like_encode (p : Pt) : Cost (Arr Byte 57) := do
  let x ← square p.x
  let t ← square p.y
  let u := add x t
  let z := add p.y p.x
  let y ← square z
  let y := sub u y
  let z := sub t x
  let x ← square p.z
  let t := add x x
  let t := sub t z
  let x ← mul t y
  let y ← mul z u
  let z ← mul u t
  let z ← invert z
  let t ← mul x z
  let x ← mul y z
  pure ⟨(dsa_like_serialize x).1 ++ [((0x80 : W32) &&& low_bit t).setWidth 8], by
    simp [(dsa_like_serialize x).2]⟩

/-- `is_on_curve`, src/extended_point.rs:214-230. -/
def is_on_curve (p : Pt) : Cost Bool := do
  let a ← mul p.x p.y
  let b ← mul p.z p.t
  let valid := decaf_equal a b
  let a ← square p.x
  let b ← square p.y
  let a := sub b a
  let b ← square p.t
  let c ← mul_w b (BitVec.ofInt 64 (1 - EDWARDS_D))
  let b ← square p.z
  let b := sub b c
  let valid := valid &&& decaf_equal a b
  let valid := valid &&& ~~~(decaf_equal p.z BIG_ZERO)
  pure (valid == 0xffffffff)

/-- `to_projected_niels`, src/extended_point.rs:232-242. -/
def to_projected_niels (p : Pt) : Cost PNiels := do
  let a := sub p.y p.x
  let b := add p.x p.y
  let c ← mul_with_signed_curve_constant p.t (2 * EDWARDS_D - 2)
  let z := add p.z p.z
  pure ⟨⟨a, b, c⟩, z⟩

/-- The loop of `prepare_fixed_window`, src/extended_point.rs:253-256, with `k` iterations left. -/
def fixedWindowLoop (pn : PNiels) : Nat → Pt → Cost (List PNiels)
  | 0, _ => pure []
  | k + 1, p => do
    let p ← add_projected_niels_to_extended p pn false
    let e ← to_projected_niels p
    let rest ← fixedWindowLoop pn k p
    pure (e :: rest)

/-- `prepare_fixed_window`, src/extended_point.rs:244-259. -/
def prepare_fixed_window (p : Pt) : Cost (List PNiels) := do
  let p_temp ← double_internal p false
  let pn ← to_projected_niels p_temp
  let e ← to_projected_niels p
  let rest ← fixedWindowLoop pn 15 p
  pure (e :: rest)

/-- `TwistedNiels::to_extended`, src/extended_point.rs:425-433. -/
def to_extended (n : TwistedNiels) : Cost Pt := do
  let y := add n.b n.a
  let x := sub n.b n.a
  let t ← mul y x
  pure ⟨x, y, BIG_ONE, t⟩

/-- `doubles` repetitions of `double_internal(true)`, the loop in src/extended_point.rs:294-296. -/
def doubleTimes : Nat → Pt → Cost Pt
  | 0, p => pure p
  | k + 1, p => do
    let p ← doubleTimes k p
    double_internal p true

/-- The `while i >= 0` loop of `point_scalar_mul` after the first iteration, src/extended_point.rs:276-304. -/
def scalarMulLoop (multiples : List PNiels) (s : List W32) : Nat → Pt → Cost Pt
  | 0, out => pure out
  | k + 1, out => do
    let p_neg ← free (selectMultiple multiples s (5 * k))
    let out ← doubleTimes 4 out
    let out ← double_internal out false
    let out ← add_projected_niels_to_extended out p_neg false
    scalarMulLoop multiples s k out

/-- `point_scalar_mul`, src/extended_point.rs:261-305. -/
def point_scalar_mul (p : Pt) (s : Scalar) : Cost Pt := do
  let scalar1x := scalarAdd s scalar_adjustment
  let scalar1x := halve scalar1x
  let multiples ← prepare_fixed_window p
  let p_neg ← free (selectMultiple multiples scalar1x.1 445)
  let out ← to_extended_point p_neg
  scalarMulLoop multiples scalar1x.1 89 out

/-- The loop of `decaf_prepare_wnaf_table`, src/extended_point.rs:505-508, with `k` entries left. -/
def wnafTableLoop (tw_op : PNiels) : Nat → Pt → Cost (List PNiels)
  | 0, _ => pure []
  | k + 1, p => do
    let p ← add_projected_niels_to_extended p tw_op false
    let e ← to_projected_niels p
    let rest ← wnafTableLoop tw_op k p
    pure (e :: rest)

/-- `decaf_prepare_wnaf_table`, src/extended_point.rs:487-509. -/
def decaf_prepare_wnaf_table (p : Pt) : Cost (List PNiels) := do
  let d0 ← to_projected_niels p
  let p ← double_internal p false
  let tw_op ← to_projected_niels p
  let p ← add_projected_niels_to_extended p d0 false
  let d1 ← to_projected_niels p
  let rest ← wnafTableLoop tw_op 6 p
  pure (d0 :: d1 :: rest)

/-- The digit of the variable scalar at position `i`, src/extended_point.rs:374-383. -/
def addVar (precmp_var : List PNiels) (i : Int) (ev : SmvtControl) (cp : Bool) (out : Pt) : Cost Pt :=
  if ev.addend > 0 then do
    let e ← free (idx precmp_var (asUsize ev.addend >>> 1))
    add_projected_niels_to_extended out e (i != 0 && !cp)
  else do
    let e ← free (idx precmp_var (asUsize (-ev.addend) >>> 1))
    sub_projected_niels_from_extended_point out e (i != 0 && !cp)

/-- The digit of the fixed scalar at position `i`, src/extended_point.rs:385-394. -/
def addPre (i : Int) (ep : SmvtControl) (out : Pt) : Cost Pt :=
  if ep.addend > 0 then do
    let e ← free (idx DECAF_WNAF_TABLE (asUsize ep.addend >>> 1))
    add_niels_to_extended out e (i != 0)
  else do
    let e ← free (idx DECAF_WNAF_TABLE (asUsize (-ep.addend) >>> 1))
    sub_niels_from_extended_point out e (i != 0)

/-- The `while i >= 0` loop of `point_double_scalamul_non_secret`, src/extended_point.rs:368-397, for
`i = k-1, ..., 0`. -/
def doubleScalarLoop (control_var control_pre : List SmvtControl) (precmp_var : List PNiels) :
    Nat → Nat → Nat → Pt → Cost Pt
  | 0, _, _, out => pure out
  | k + 1, contv, contp, out => do
    let i : Int := k
    let ev ← free (idx control_var contv)
    let ep ← free (idx control_pre contp)
    let cv : Bool := i == ev.power
    let cp : Bool := i == ep.power
    let out ← double_internal out (i != 0 && !(cv || cp))
    let out ← cond cv (addVar precmp_var i ev cp out) (pure out)
    let out ← cond cp (addPre i ep out) (pure out)
    doubleScalarLoop control_var control_pre precmp_var k (cond cv (contv + 1) contv) (cond cp (contp + 1) contp) out

/-- The first digits, src/extended_point.rs:340-361: `(out, i, contv, contp)`. -/
def firstDigits (v0 p0 : SmvtControl) (precmp_var : List PNiels) : Cost (Pt × Int × Nat × Nat) :=
  let index := asUsize (v0.addend / 2)
  let i := v0.power
  if i > p0.power then do
    let e ← free (idx precmp_var index)
    let out ← to_extended_point e
    pure (out, i, 1, 0)
  else if i = p0.power ∧ i ≥ 0 then do
    let e ← free (idx precmp_var index)
    let out ← to_extended_point e
    let f ← free (idx DECAF_WNAF_TABLE (asUsize p0.addend >>> 1))
    let out ← add_niels_to_extended out f (i != 0)
    pure (out, i, 1, 1)
  else do
    let f ← free (idx DECAF_WNAF_TABLE (asUsize p0.addend >>> 1))
    let out ← to_extended f
    pure (out, p0.power, 0, 1)

/-- `point_double_scalamul_non_secret`, src/extended_point.rs:307-402. -/
def point_double_scalamul_non_secret (p : Pt) (scalar_pre scalar_var : Scalar) : Cost Pt := do
  let control_pre ← free (recode_wnaf (List.replicate 77 ⟨0, 0⟩) scalar_pre 5)
  let control_var ← free (recode_wnaf (List.replicate 115 ⟨0, 0⟩) scalar_var 3)
  let precmp_var ← decaf_prepare_wnaf_table p
  let v0 ← free (idx control_var 0)
  let p0 ← free (idx control_pre 0)
  let r ← firstDigits v0 p0 precmp_var
  if r.2.1 < 0 then pure Pt.identity
  else doubleScalarLoop control_var control_pre precmp_var r.2.1.toNat r.2.2.1 r.2.2.2 r.1

/-- Recovery of the x coordinate, src/extended_point.rs:531-538. -/
def decodeRoot (y : BN) (low : W32) : Cost BN := do
  let x ← square y
  let z := sub BIG_ONE x
  let t ← mul_with_signed_curve_constant x EDWARDS_D
  let t := sub BIG_ONE t
  let x ← mul z t
  let t ← isr x
  let x ← mul t z
  pure (decaf_cond_negate x (~~~(low_bit x) ^^^ low))

/-- The isogeny, src/extended_point.rs:539-554. -/
def decodeIsogeny (x y : BN) : Cost Pt := do
  let z := BIG_ONE
  let c ← square x
  let a ← square y
  let d := add c a
  let t := add y x
  let b ← square t
  let b := sub b d
  let t := sub a c
  let x ← square z
  let z := add x x
  let a := sub z d
  let x ← mul a b
  let z ← mul t a
  let y ← mul t d
  let t ← mul b d
  pure ⟨x, y, z, t⟩

/-- The checks and the division by 4, src/extended_point.rs:556-567. -/
def decodeFinish (p : Pt) (succ : W32) : Cost (Except Err Pt) := do
  let ok ← is_on_curve p
  if !ok || succ == 0 then pure (.error .DecodeError)
  else do
    let scalar_one_forth := halve (halve SCALAR_ONE)
    let p ← point_scalar_mul p scalar_one_forth
    pure (.ok p)

/-- `eddsa_like_decode`, src/extended_point.rs:513-568, for a 57-byte string. -/
def eddsaDecode57 (src_org : Arr Byte 57) : Cost (Except Err Pt) := do
  let b56 : Byte := src_org.1[56]'(by simp [src_org.2])
  let low := ~~~(is_zero_mask (0x80 &&& b56.setWidth 32))
  let b56 := b56 &&& (~~~(0x80 : W32)).setWidth 8
  let src : Arr Byte 57 := ⟨src_org.1.set 56 b56, by simp [src_org.2]⟩
  let succ := is_zero_mask (b56.setWidth 32)
  let d := dsa_like_deserialize src
  let succ := succ &&& d.2
  let x ← decodeRoot d.1 low
  let p ← decodeIsogeny x d.1
  decodeFinish p succ

/-- `eddsa_like_decode`, src/extended_point.rs:513-568, with the length check of lines 515-517. -/
def eddsa_like_decode (src_org : List Byte) : Cost (Except Err Pt) :=
  if h : src_org.length = 57 then eddsaDecode57 ⟨src_org, h⟩
  else pure (.error .InvalidLengthError)

/-- The loop over the combs, src/extended_point.rs:581-602, for the remaining values of `j`. -/
def combInner (s : List W32) (i : Nat) : List Nat → Pt → Cost Pt
  | [], p => pure p
  | j :: js, p => do
    let np ← free (combSelect s i j)
    let p ← if i ≠ 17 ∨ j ≠ 0 then add_niels_to_extended p np (j == 4 && i != 0)
      else to_extended np
    combInner s i js p

/-- The loop `for i in (0..18).rev()`, src/extended_point.rs:576-603, for `i = k-1, ..., 0`. -/
def combOuter (s : List W32) : Nat → Pt → Cost Pt
  | 0, p => pure p
  | i + 1, p => do
    let p ← if i ≠ 17 then double_internal p false else pure p
    let p ← combInner s i [0, 1, 2, 3, 4] p
    combOuter s i p

/-- `precomputed_scalar_mul`, src/extended_point.rs:570-606. -/
def precomputed_scalar_mul (s : Scalar) : Cost Pt :=
  let scalar2 := scalarAdd s scalar_adjustment
  let scalar2 := halve scalar2
  combOuter scalar2.1 18 Pt.zero

/-! ## src/eddsa.rs -/

/-- The two points compared at the end of `dsa_verify`, src/eddsa.rs:86-101. -/
def verifyPoints (xof : Xof) (p p2 r_point : Pt) (sig1 sig2 : Arr Byte 57) (message : List Byte) : Cost (Pt × Pt) := do
  let r_point ← point_scalar_mul r_point SCALAR_FOUR
  let enc ← eddsa_like_encode p
  let challenge ← hash_with_dom xof (sig1.1 ++ enc.1 ++ message) 114
  let challenge_scalar := decode_long challenge.1
  let challenge_scalar := scalarSub SCALAR_ZERO challenge_scalar
  let responce_scalar := decode_long sig2.1
  let pk ← point_double_scalamul_non_secret p2 responce_scalar challenge_scalar
  pure (r_point, pk)

/-- `dsa_verify`, src/eddsa.rs:39-102. -/
def dsa_verify (xof : Xof) (pubkey sig message : List Byte) : Cost (Except Err Bool) := do
  match ← eddsa_like_decode pubkey with
  | .error .InvalidLengthError => pure (.error .InvalidPubkeyLengthError)
  | .error .DecodeError => pure (.error .DecodePubkeyError)
  | .error _ => free (.error .explicit)
  | .ok p =>
    let p2 ← point_scalar_mul p SCALAR_FOUR
    let sig1 ← free (sliceArr sig 0 57)
    let sig2 ← free (sliceArr sig 57 57)
    match ← eddsa_like_decode sig1.1 with
    | .error .InvalidLengthError => pure (.error .InvalidSignatureLengthError)
    | .error .DecodeError => pure (.error .DecodeSignatureError)
    | .error _ => free (.error .explicit)
    | .ok r_point =>
      let r ← verifyPoints xof p p2 r_point sig1 sig2 message
      let b ← mod_equal r.1 r.2
      pure (.ok b)

/-! ## src/goldilocks.rs -/

/-- `point_by_secret`, src/goldilocks.rs:31-39. -/
def point_by_secret (p : Arr Byte 57) : Cost Pt :=
  let digest := clamp p
  let r := decode_long digest.1
  let r := halve r
  let r := halve r
  precomputed_scalar_mul r

/-- `private_to_secret`, src/goldilocks.rs:41-46. -/
def private_to_secret (xof : Xof) (pk : Arr Byte 57) : Cost (Arr Byte 57) := do
  let sk ← sha3 xof pk.1 57
  pure ⟨sk.1.set 56 (sk.1.getD 56 0 ||| 0x80), by simp [sk.2]⟩

/-- `secret_to_public`, src/goldilocks.rs:48-53. -/
def secret_to_public (sk : Arr Byte 57) : Cost (Arr Byte 57) := do
  let h ← point_by_secret sk
  eddsa_like_encode h

/-- `private_to_public`, src/goldilocks.rs:55-57. -/
def private_to_public (xof : Xof) (pk : Arr Byte 57) : Cost (Arr Byte 57) := do
  let sk ← private_to_secret xof pk
  secret_to_public sk

/-- The common part of the two signing functions, src/goldilocks.rs:69-95 and 107-133. -/
def signTail (xof : Xof) (point : Pt) (sec : Scalar) (seed message : List Byte) : Cost (Arr Byte 114) := do
  let nonce ← hash_with_dom xof (seed ++ message) 114
  let nonce_scalar := decode_long nonce.1
  let nonce_scalar2 := halve nonce_scalar
  let nonce_scalar2 := halve nonce_scalar2
  let np ← precomputed_scalar_mul nonce_scalar2
  let nonce_point ← eddsa_like_encode np
  let enc ← eddsa_like_encode point
  let challenge ← hash_with_dom xof (nonce_point.1 ++ enc.1 ++ message) 114
  let challenge_scalar := decode_long challenge.1
  let challenge_scalar := scalarMul challenge_scalar sec
  let challenge_scalar := scalarAdd challenge_scalar nonce_scalar
  pure (joinSig nonce_point (scalarEncode challenge_scalar))

/-- `sign_by_private`, src/goldilocks.rs:59-95. -/
def sign_by_private (xof : Xof) (pk : Arr Byte 57) (message : List Byte) : Cost (Arr Byte 114) := do
  let secret ← sha3 xof pk.1 114
  let secret := clamp secret
  let sk : Arr Byte 57 := ⟨secret.1.take 57, by simp [secret.2]⟩
  let sec := decode_long sk.1
  let seed := secret.1.drop 57
  let point ← point_by_secret sk
  signTail xof point sec seed message

/-- `sign_with_secret_and_nonce`, src/goldilocks.rs:97-133. -/
def sign_with_secret_and_nonce (xof : Xof) (secret n : Arr Byte 57) (message : List Byte) : Cost (Arr Byte 114) := do
  let s1 := clamp secret
  let sec := decode_long s1.1
  let pub_point ← point_by_secret secret
  signTail xof pub_point sec n.1 message

/-- `ed448_derive_public`, src/goldilocks.rs:135-141. -/
def ed448_derive_public (xof : Xof) (pk : Arr Byte 57) : Cost (Arr Byte 57) :=
  if topBitClear pk then private_to_public xof pk else secret_to_public pk

/-- `ed448_sign`, src/goldilocks.rs:143-152. -/
def ed448_sign (xof : Xof) (pk : Arr Byte 57) (message : List Byte) : Cost (Arr Byte 114) :=
  if topBitClear pk then sign_by_private xof pk message
  else
    let digest := clamp pk
    sign_with_secret_and_nonce xof digest digest message

/-- `ed448_verify`, src/goldilocks.rs:154-161. -/
def ed448_verify (xof : Xof) (pubkey sig message : List Byte) : Cost (Except Err Bool) :=
  if pubkey = List.replicate 57 0 ∨ sig = List.replicate 114 0 then
    pure (.error .InvalidSignatureError)
  else dsa_verify xof pubkey sig message

end Cost

end Ed448
