import Verif.Model.Point
import Verif.Model.Scalar
import Verif.Model.WnafTable
import Verif.Model.CombTable

/-!
# Points of the twisted curve: src/extended_point.rs

`&mut self` methods return the new value of `self`.
-/

namespace Ed448

/-- `TwistedExtendedPoint::new`, src/extended_point.rs:79-93. -/
def Pt.zero : Pt := ⟨BIG_ZERO, BIG_ZERO, BIG_ZERO, BIG_ZERO⟩

/-- `set_identity`, src/extended_point.rs:95-100. -/
def Pt.identity : Pt := ⟨BIG_ZERO, BIG_ONE, BIG_ONE, BIG_ZERO⟩

/-- `TwistedProjectedNiels::new`, src/extended_point.rs:51-63, with `TwistedNiels::new` and `default`, src/extended_point.rs:404-418. -/
def PNiels.zero : PNiels := ⟨⟨BIG_ZERO, BIG_ZERO, BIG_ZERO⟩, BIG_ZERO⟩

/-- `TwistedProjectedNiels::to_extended_point`, src/extended_point.rs:65-76. -/
def PNiels.to_extended_point (p : PNiels) : Pt :=
  let eu := add p.n.b p.n.a
  let qy := sub p.n.b p.n.a
  let qt := mul qy eu
  let qx := mul p.z qy
  let qy := mul p.z eu
  let qz := square p.z
  ⟨qx, qy, qz, qt⟩

/-- `double_internal`, src/extended_point.rs:102-122. -/
def Pt.double_internal (p : Pt) (before_double : Bool) : Pt :=
  let c := square p.x
  let a := square p.y
  let d := add_raw c a
  let t := add_raw p.x p.y
  let b := square t
  let b := sub_x_bias b d 3
  let t := sub a c
  let x := square p.z
  let z := add_raw x x
  let a := sub_x_bias z t 4
  let x := mul a b
  let z := mul t a
  let y := mul t d
  let t := if !before_double then mul b d else t
  ⟨x, y, z, t⟩

/-- `mod_equal`, src/extended_point.rs:124-130. -/
def Pt.mod_equal (p p2 : Pt) : Bool :=
  let a := mul p.y p2.x
  let b := mul p.x p2.y
  let valid := decaf_equal a b
  valid == 0xffffffff

/-- `add_niels_to_extended`, src/extended_point.rs:132-148. -/
def Pt.add_niels_to_extended (p : Pt) (np : TwistedNiels) (before_double : Bool) : Pt :=
  let b := sub p.y p.x
  let a := mul np.a b
  let b := add_raw p.x p.y
  let y := mul np.b b
  let x := mul np.c p.t
  let c := add_raw a y
  let b := sub y a
  let y := sub p.z x
  let a := add_raw x p.z
  let z := mul a y
  let x := mul y b
  let y := mul a c
  let t := if !before_double then mul b c else p.t
  ⟨x, y, z, t⟩

/-- `sub_niels_from_extended_point`, src/extended_point.rs:150-166. -/
def Pt.sub_niels_from_extended_point (p : Pt) (np : TwistedNiels) (before_double : Bool) : Pt :=
  let b := sub p.y p.x
  let a := mul np.b b
  let b := add_raw p.x p.y
  let y := mul np.a b
  let x := mul np.c p.t
  let c := add_raw a y
  let b := sub y a
  let y := add_raw p.z x
  let a := sub p.z x
  let z := mul a y
  let x := mul y b
  let y := mul a c
  let t := if !before_double then mul b c else p.t
  ⟨x, y, z, t⟩

/-- `add_projected_niels_to_extended`, src/extended_point.rs:168-176. -/
def Pt.add_projected_niels_to_extended (p : Pt) (np : PNiels) (before_double : Bool) : Pt :=
  let tmp := mul p.z np.z
  Pt.add_niels_to_extended { p with z := tmp } np.n before_double

/-- `sub_projected_niels_from_extended_point`, src/extended_point.rs:178-186. -/
def Pt.sub_projected_niels_from_extended_point (p : Pt) (p2 : PNiels) (before_double : Bool) : Pt :=
  let tmp := mul p.z p2.z
  Pt.sub_niels_from_extended_point { p with z := tmp } p2.n before_double

/-- `eddsa_like_encode`, src/extended_point.rs:188-212. -/
def Pt.eddsa_like_encode (p : Pt) : Arr Byte 57 :=
  let x := square p.x
  let t := square p.y
  let u := add x t
  let z := add p.y p.x
  let y := square z
  let y := sub u y
  let z := sub t x
  let x := square p.z
  let t := add x x
  let t := sub t z
  let x := mul t y
  let y := mul z u
  let z := mul u t
  let z := invert z
  let t := mul x z
  let x := mul y z
  ⟨(dsa_like_serialize x).1 ++ [((0x80 : W32) &&& low_bit t).setWidth 8], by
    simp [(dsa_like_serialize x).2]⟩

/-- `is_on_curve`, src/extended_point.rs:214-230. -/
def Pt.is_on_curve (p : Pt) : Rust Bool := do
  let a := mul p.x p.y
  let b := mul p.z p.t
  let valid := decaf_equal a b
  let a := square p.x
  let b := square p.y
  let a := sub b a
  let b := square p.t
  let c ← mul_w b (BitVec.ofInt 64 (1 - EDWARDS_D))
  let b := square p.z
  let b := sub b c
  let valid := valid &&& decaf_equal a b
  let valid := valid &&& ~~~(decaf_equal p.z BIG_ZERO)
  pure (valid == 0xffffffff)

/-- `to_projected_niels`, src/extended_point.rs:232-242. -/
def Pt.to_projected_niels (p : Pt) : Rust PNiels := do
  let a := sub p.y p.x
  let b := add p.x p.y
  let c ← mul_with_signed_curve_constant p.t (2 * EDWARDS_D - 2)
  let z := add p.z p.z
  pure ⟨⟨a, b, c⟩, z⟩

/-- The loop of `prepare_fixed_window`, src/extended_point.rs:253-256, with `k` iterations left. -/
def fixedWindowLoop (pn : PNiels) : Nat → Pt → Rust (List PNiels)
  | 0, _ => pure []
  | k + 1, p => do
    let p := p.add_projected_niels_to_extended pn false
    let e ← p.to_projected_niels
    let rest ← fixedWindowLoop pn k p
    pure (e :: rest)

/-- `prepare_fixed_window`, src/extended_point.rs:244-259. -/
def Pt.prepare_fixed_window (p : Pt) : Rust (List PNiels) := do
  let p_temp := p.double_internal false
  let pn ← p_temp.to_projected_niels
  let e ← p.to_projected_niels
  let rest ← fixedWindowLoop pn 15 p
  pure (e :: rest)

/-- `TwistedNiels::conditional_negate`, src/extended_point.rs:420-423. -/
def TwistedNiels.conditional_negate (n : TwistedNiels) (neg : W32) : TwistedNiels :=
  let s := conditional_swap n.a n.b neg
  ⟨s.1, s.2, Ed448.conditional_negate n.c neg⟩

/-- `TwistedNiels::to_extended`, src/extended_point.rs:425-433. -/
def TwistedNiels.to_extended (n : TwistedNiels) : Pt :=
  let y := add n.b n.a
  let x := sub n.b n.a
  let t := mul y x
  ⟨x, y, BIG_ONE, t⟩

/-- `doubles` repetitions of `double_internal(true)`, the loop in src/extended_point.rs:294-296. -/
def Pt.doubleTimes : Nat → Pt → Pt
  | 0, p => p
  | k + 1, p => (Pt.doubleTimes k p).double_internal true

/-- The bits of the current window, src/extended_point.rs:278-284: `(bits, inv)` where `bits` has already been
exclusive-ored with `inv`. -/
def windowBits (s : List W32) (i1 : Nat) : Rust (W32 × W32) := do
  let w ← idx s (i1 / 32)
  let bits := w >>> (i1 % 32)
  let bits ← if i1 % 32 ≥ 32 - 5 ∧ i1 / 32 < 14 - 1 then do
      let w' ← idx s (i1 / 32 + 1)
      pure (bits ^^^ (w' <<< (32 - i1 % 32)))
    else pure bits
  let bits := bits &&& 31
  let inv := (bits >>> 4) - 1
  pure (bits ^^^ inv, inv)

/-- One window of `point_scalar_mul` selects and possibly negates a multiple,
src/extended_point.rs:278-288. -/
def selectMultiple (multiples : List PNiels) (s : List W32) (i1 : Nat) : Rust PNiels := do
  let (bits, inv) ← windowBits s i1
  let p_neg ← idx multiples (bits.toNat &&& 15)
  pure { p_neg with n := p_neg.n.conditional_negate inv }

/-- The iterations `i = 5*k, ..., 5, 0` of the `while i >= 0` loop of `point_scalar_mul` after the first one,
src/extended_point.rs:276-304. -/
def scalarMulLoop (multiples : List PNiels) (s : List W32) : Nat → Pt → Rust Pt
  | 0, out => pure out
  | k + 1, out => do
    let p_neg ← selectMultiple multiples s (5 * k)
    let out := Pt.doubleTimes 4 out
    let out := out.double_internal false
    let out := out.add_projected_niels_to_extended p_neg false
    scalarMulLoop multiples s k out

/-- `point_scalar_mul`, src/extended_point.rs:261-305. `SCALAR_BITS - (SCALAR_BITS - 1) % 5 - 1 = 445`, so `i` runs
through 445, 440, ..., 0; the first iteration (`first`) only converts the selected multiple. -/
def Pt.point_scalar_mul (p : Pt) (s : Scalar) : Rust Pt := do
  let scalar1x := scalarAdd s scalar_adjustment
  let scalar1x := halve scalar1x
  let multiples ← p.prepare_fixed_window
  let p_neg ← selectMultiple multiples scalar1x.1 445
  let out := p_neg.to_extended_point
  scalarMulLoop multiples scalar1x.1 89 out

/-- The `while n % 2 == 0` loop of `trailing_zeroes_32`, src/extended_point.rs:441-444; the first argument is fuel. -/
def tzLoop : Nat → W32 → W32 → Rust W32
  | 0, _, _ => .error .diverge
  | k + 1, n, r => if n.toNat % 2 = 0 then tzLoop k (n / 2) (r + 1) else .ok r

/-- `trailing_zeroes_32`, src/extended_point.rs:436-446. -/
def trailing_zeroes_32 (n : W32) : Rust W32 :=
  if n = 0 then .ok 32 else tzLoop 32 n 0

/-- The `while current & 0xffff != 0` loop of `recode_wnaf`, src/extended_point.rs:464-475. The first argument
is fuel. State: `(control, position, current)`. `delta` and `delta << pos` are `i32` values, modelled as 32-bit vectors. -/
def wnafInner (table_bits : Nat) (w : Nat) :
    Nat → List SmvtControl → Nat → W64 → Rust (List SmvtControl × Nat × W64)
  | 0, _, _, _ => .error .diverge
  | fuel + 1, control, position, current =>
    if current &&& 0xffff ≠ 0 then do
      let mask : W32 := ((1 : W32) <<< (table_bits + 1)) - 1
      let pos ← trailing_zeroes_32 (lo32 current)
      let odd : W32 := lo32 current >>> pos.toNat
      let delta : W32 := odd &&& mask
      let delta : W32 :=
        if odd &&& ((1 : W32) <<< (table_bits + 1)) ≠ 0 then delta - ((1 : W32) <<< (table_bits + 1)) else delta
      let c ← chkI64 (current.toInt - (delta <<< pos.toNat).toInt)
      let current := BitVec.ofInt 64 c
      let control ← setIdx control position
        ⟨(pos.toNat : Int) + 16 * ((w : Int) - 1), delta.toInt⟩
      let position ← decUsize position
      wnafInner table_bits w fuel control position current
    else pure (control, position, current)

/-- The next 16 bits of the scalar are added to `current`, src/extended_point.rs:461-463. -/
def wnafAdd (s : List W32) (w : Nat) (current : W64) : Rust W64 :=
  if w < 28 then do
    let sw ← idx s (w / 2)
    addU64 current (u64 ((sw >>> (16 * (w % 2))) <<< 16))
  else pure current

/-- The loop `for w in 1..30` of `recode_wnaf`, src/extended_point.rs:460-477, over the remaining values of `w`. -/
def wnafOuter (table_bits : Nat) (s : List W32) :
    List Nat → List SmvtControl → Nat → W64 → Rust (List SmvtControl × Nat × W64)
  | [], control, position, current => pure (control, position, current)
  | w :: ws, control, position, current => do
    let current ← wnafAdd s w current
    let r ← wnafInner table_bits w 17 control position current
    wnafOuter table_bits s ws r.1 r.2.1 (r.2.2 >>> 16)

/-- The copying loop of `recode_wnaf`, src/extended_point.rs:481-483, for the remaining values of `i`. -/
def wnafCopy (position : Nat) : List Nat → List SmvtControl → Rust (List SmvtControl)
  | [], control => pure control
  | i :: is, control => do
    let e ← idx control (i + position)
    let control ← setIdx control i e
    wnafCopy position is control

/-- `recode_wnaf`, src/extended_point.rs:448-485: the new contents of `control`. (The returned length is not used by
the caller.) -/
def recode_wnaf (control : List SmvtControl) (s : Scalar) (table_bits : Nat) :
    Rust (List SmvtControl) := do
  let table_size := 446 / (table_bits + 1) + 3
  let position := table_size - 1
  let control ← setIdx control position ⟨-1, 0⟩
  let position ← decUsize position
  let current : W64 := u64 (s.head &&& 0xffff)
  let (control, position, _) ←
    wnafOuter table_bits s.1 ((List.range 29).map (· + 1)) control position current
  let position := position + 1
  let n := table_size - position
  wnafCopy position (List.range n) control

/-- The loop of `decaf_prepare_wnaf_table`, src/extended_point.rs:505-508, with `k` entries left. -/
def wnafTableLoop (tw_op : PNiels) : Nat → Pt → Rust (List PNiels)
  | 0, _ => pure []
  | k + 1, p => do
    let p := p.add_projected_niels_to_extended tw_op false
    let e ← p.to_projected_niels
    let rest ← wnafTableLoop tw_op k p
    pure (e :: rest)

/-- `decaf_prepare_wnaf_table`, src/extended_point.rs:487-509, with `table_size = 3` and an eight-entry `dst` as in
the only call. -/
def decaf_prepare_wnaf_table (p : Pt) : Rust (List PNiels) := do
  let d0 ← p.to_projected_niels
  let p := p.double_internal false
  let tw_op ← p.to_projected_niels
  let p := p.add_projected_niels_to_extended d0 false
  let d1 ← p.to_projected_niels
  let rest ← wnafTableLoop tw_op 6 p
  pure (d0 :: d1 :: rest)

/-- `x as usize` for an `i64`. -/
def asUsize (x : Int) : Nat := (BitVec.ofInt 64 x).toNat

/-- The digit of the variable scalar at position `i`, src/extended_point.rs:374-383. -/
def addVar (precmp_var : List PNiels) (i : Int) (ev : SmvtControl) (cp : Bool) (out : Pt) : Rust Pt :=
  if ev.addend > 0 then do
    let e ← idx precmp_var (asUsize ev.addend >>> 1)
    pure (out.add_projected_niels_to_extended e (i != 0 && !cp))
  else do
    let e ← idx precmp_var (asUsize (-ev.addend) >>> 1)
    pure (out.sub_projected_niels_from_extended_point e (i != 0 && !cp))

/-- The digit of the fixed scalar at position `i`, src/extended_point.rs:385-394. -/
def addPre (i : Int) (ep : SmvtControl) (out : Pt) : Rust Pt :=
  if ep.addend > 0 then do
    let e ← idx DECAF_WNAF_TABLE (asUsize ep.addend >>> 1)
    pure (out.add_niels_to_extended e (i != 0))
  else do
    let e ← idx DECAF_WNAF_TABLE (asUsize (-ep.addend) >>> 1)
    pure (out.sub_niels_from_extended_point e (i != 0))

/-- The `while i >= 0` loop of `point_double_scalamul_non_secret`, src/extended_point.rs:368-397, for
`i = k-1, ..., 0`. -/
def doubleScalarLoop (control_var control_pre : List SmvtControl) (precmp_var : List PNiels) :
    Nat → Nat → Nat → Pt → Rust Pt
  | 0, _, _, out => pure out
  | k + 1, contv, contp, out => do
    let i : Int := k
    let ev ← idx control_var contv
    let ep ← idx control_pre contp
    let cv : Bool := i == ev.power
    let cp : Bool := i == ep.power
    let out := out.double_internal (i != 0 && !(cv || cp))
    let out ← cond cv (addVar precmp_var i ev cp out) (pure out)
    let out ← cond cp (addPre i ep out) (pure out)
    doubleScalarLoop control_var control_pre precmp_var k (cond cv (contv + 1) contv) (cond cp (contp + 1) contp) out

/-- The first digits, src/extended_point.rs:340-361: `(out, i, contv, contp)`. -/
def firstDigits (v0 p0 : SmvtControl) (precmp_var : List PNiels) : Rust (Pt × Int × Nat × Nat) :=
  let index := asUsize (v0.addend / 2)
  let i := v0.power
  if i > p0.power then do
    let e ← idx precmp_var index
    pure (e.to_extended_point, i, 1, 0)
  else if i = p0.power ∧ i ≥ 0 then do
    let e ← idx precmp_var index
    let f ← idx DECAF_WNAF_TABLE (asUsize p0.addend >>> 1)
    pure (e.to_extended_point.add_niels_to_extended f (i != 0), i, 1, 1)
  else do
    let f ← idx DECAF_WNAF_TABLE (asUsize p0.addend >>> 1)
    pure (f.to_extended, p0.power, 0, 1)

/-- `point_double_scalamul_non_secret`, src/extended_point.rs:307-402. -/
def Pt.point_double_scalamul_non_secret (p : Pt) (scalar_pre scalar_var : Scalar) : Rust Pt := do
  let control_pre ← recode_wnaf (List.replicate 77 ⟨0, 0⟩) scalar_pre 5
  let control_var ← recode_wnaf (List.replicate 115 ⟨0, 0⟩) scalar_var 3
  let precmp_var ← decaf_prepare_wnaf_table p
  let v0 ← idx control_var 0
  let p0 ← idx control_pre 0
  let r ← firstDigits v0 p0 precmp_var
  if r.2.1 < 0 then pure Pt.identity
  else doubleScalarLoop control_var control_pre precmp_var r.2.1.toNat r.2.2.1 r.2.2.2 r.1

/-- Recovery of the x coordinate, src/extended_point.rs:531-538. -/
def decodeRoot (y : BN) (low : W32) : Rust BN := do
  let x := square y
  let z := sub BIG_ONE x
  let t ← mul_with_signed_curve_constant x EDWARDS_D
  let t := sub BIG_ONE t
  let x := mul z t
  let t := isr x
  let x := mul t z
  pure (decaf_cond_negate x (~~~(low_bit x) ^^^ low))

/-- The isogeny, src/extended_point.rs:539-554. -/
def decodeIsogeny (x y : BN) : Pt :=
  let z := BIG_ONE
  let c := square x
  let a := square y
  let d := add c a
  let t := add y x
  let b := square t
  let b := sub b d
  let t := sub a c
  let x := square z
  let z := add x x
  let a := sub z d
  let x := mul a b
  let z := mul t a
  let y := mul t d
  let t := mul b d
  ⟨x, y, z, t⟩

/-- The checks and the division by 4, src/extended_point.rs:556-567. -/
def decodeFinish (p : Pt) (succ : W32) : Rust (Except Err Pt) := do
  let ok ← p.is_on_curve
  if !ok || succ == 0 then pure (.error .DecodeError)
  else do
    let scalar_one_forth := halve (halve SCALAR_ONE)
    let p ← p.point_scalar_mul scalar_one_forth
    pure (.ok p)

/-- `eddsa_like_decode`, src/extended_point.rs:513-568, for a 57-byte string. -/
def eddsaDecode57 (src_org : Arr Byte 57) : Rust (Except Err Pt) := do
  let b56 : Byte := src_org.1[56]'(by simp [src_org.2])
  let low := ~~~(is_zero_mask (0x80 &&& b56.setWidth 32))
  let b56 := b56 &&& (~~~(0x80 : W32)).setWidth 8
  let src : Arr Byte 57 := ⟨src_org.1.set 56 b56, by simp [src_org.2]⟩
  let succ := is_zero_mask (b56.setWidth 32)
  let d := dsa_like_deserialize src
  let succ := succ &&& d.2
  let x ← decodeRoot d.1 low
  decodeFinish (decodeIsogeny x d.1) succ

/-- `eddsa_like_decode`, src/extended_point.rs:513-568, with the length check of lines 515-517. -/
def eddsa_like_decode (src_org : List Byte) : Rust (Except Err Pt) :=
  if h : src_org.length = 57 then eddsaDecode57 ⟨src_org, h⟩
  else pure (.error .InvalidLengthError)

/-- The loop over the teeth, src/extended_point.rs:582-588: the comb index before sign folding. -/
def combTab (s : List W32) (i j : Nat) : List Nat → W32 → Rust W32
  | [], tab => pure tab
  | k :: ks, tab => do
    let bit := i + 18 * (k + j * 5)
    let tab ← if bit < 446 then do
        let w ← idx s (bit / 32)
        pure (tab ||| (((w >>> (bit % 32)) &&& 1) <<< k))
      else pure tab
    combTab s i j ks tab

/-- Selection of a table entry, src/extended_point.rs:582-596, with `lookup`, src/decaf_combs_32.rs:11-14. `(tab as i32 >> 4) - 1` is 0 or -1 because `tab` has
five bits; it is modelled as a 32-bit vector. -/
def combSelect (s : List W32) (i j : Nat) : Rust TwistedNiels := do
  let tab ← combTab s i j [0, 1, 2, 3, 4] 0
  let invert : W32 := (tab.sshiftRight 4) - 1
  let tab := tab ^^^ invert
  let tab := tab &&& (((1 : W32) <<< 4) - 1)
  let index := (j <<< 4) + tab.toNat
  let np ← idx DECAF_PRECOMP_TABLE index
  pure (np.conditional_negate invert)

/-- The loop over the combs, src/extended_point.rs:581-602, for the remaining values of `j`. -/
def combInner (s : List W32) (i : Nat) : List Nat → Pt → Rust Pt
  | [], p => pure p
  | j :: js, p => do
    let np ← combSelect s i j
    let p := if i ≠ 17 ∨ j ≠ 0 then p.add_niels_to_extended np (j == 4 && i != 0)
      else np.to_extended
    combInner s i js p

/-- The loop `for i in (0..18).rev()`, src/extended_point.rs:576-603, for `i = k-1, ..., 0`. -/
def combOuter (s : List W32) : Nat → Pt → Rust Pt
  | 0, p => pure p
  | i + 1, p => do
    let p := if i ≠ 17 then p.double_internal false else p
    let p ← combInner s i [0, 1, 2, 3, 4] p
    combOuter s i p

/-- `precomputed_scalar_mul`, src/extended_point.rs:570-606. -/
def precomputed_scalar_mul (s : Scalar) : Rust Pt :=
  let scalar2 := scalarAdd s scalar_adjustment
  let scalar2 := halve scalar2
  combOuter scalar2.1 18 Pt.zero

end Ed448
