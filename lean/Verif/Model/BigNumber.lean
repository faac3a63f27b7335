import Verif.Model.KaratsubaSquare

/-!
# Field arithmetic: src/bignumber.rs

Field elements modulo p = 2^448 - 2^224 - 1 in sixteen 28-bit limbs, not necessarily reduced.
-/

namespace Ed448

/-- `RADIX_MASK`, src/constants32.rs:18. -/
abbrev RADIX_MASK : W32 := 0xfffffff

/-- `BIG_ZERO`, src/constants32.rs:51, also `create_zero_bignumber`, src/bignumber.rs:10-12. -/
def BIG_ZERO : BN := ⟨0, 0, 0, 0, 0, 0, 0, 0, 0, 0, 0, 0, 0, 0, 0, 0⟩

/-- `BIG_ONE`, src/constants32.rs:52. -/
def BIG_ONE : BN := ⟨1, 0, 0, 0, 0, 0, 0, 0, 0, 0, 0, 0, 0, 0, 0, 0⟩

/-- `EDWARDS_D`, src/constants32.rs:20. -/
abbrev EDWARDS_D : Int := -39081

/-- `is_zero_mask`, src/bignumber.rs:21-25: all ones if `n = 0`, else zero. -/
def is_zero_mask (n : W32) : W32 :=
  let nn : W64 := u64 n
  let nn := nn - 1
  lo32 (nn >>> 32)

/-- `bias`, src/bignumber.rs:27-49. The constants are computed with checked `*` and `-`; all
callers pass 2, 3 or 4, for which they do not overflow. -/
def bias (n : BN) (b : W32) : BN :=
  let co1 := RADIX_MASK * b
  let co2 := co1 - b
  ⟨n.l0 + co1, n.l1 + co1, n.l2 + co1, n.l3 + co1, n.l4 + co1, n.l5 + co1, n.l6 + co1,
    n.l7 + co1, n.l8 + co2, n.l9 + co1, n.l10 + co1, n.l11 + co1, n.l12 + co1, n.l13 + co1,
    n.l14 + co1, n.l15 + co1⟩

/-- `weak_reduce`, src/bignumber.rs:357-379. The limbs are updated from 15 down to 0, so each
right-hand side reads old values, except that `n[8]` already contains `tmp`. -/
def weak_reduce (n : BN) : BN :=
  let tmp : W32 := lo32 (u64 n.l15 >>> 28)
  let n8 := n.l8 + tmp
  ⟨(n.l0 &&& RADIX_MASK) + tmp,
    (n.l1 &&& RADIX_MASK) + (n.l0 >>> 28),
    (n.l2 &&& RADIX_MASK) + (n.l1 >>> 28),
    (n.l3 &&& RADIX_MASK) + (n.l2 >>> 28),
    (n.l4 &&& RADIX_MASK) + (n.l3 >>> 28),
    (n.l5 &&& RADIX_MASK) + (n.l4 >>> 28),
    (n.l6 &&& RADIX_MASK) + (n.l5 >>> 28),
    (n.l7 &&& RADIX_MASK) + (n.l6 >>> 28),
    (n8 &&& RADIX_MASK) + (n.l7 >>> 28),
    (n.l9 &&& RADIX_MASK) + (n8 >>> 28),
    (n.l10 &&& RADIX_MASK) + (n.l9 >>> 28),
    (n.l11 &&& RADIX_MASK) + (n.l10 >>> 28),
    (n.l12 &&& RADIX_MASK) + (n.l11 >>> 28),
    (n.l13 &&& RADIX_MASK) + (n.l12 >>> 28),
    (n.l14 &&& RADIX_MASK) + (n.l13 >>> 28),
    (n.l15 &&& RADIX_MASK) + (n.l14 >>> 28)⟩

/-- One step of the borrow chain of `strong_reduce`, e.g. src/bignumber.rs:385-387:
`scarry += n[i] - m; n[i] = scarry as Word & RADIX_MASK; scarry >>= 28`. The `i64` accumulator is
an integer; `>>` is floor division. Returns the new accumulator and the limb. -/
def srSub (scarry : Int) (n : W32) (m : Int) : Int × W32 :=
  let s := scarry + ((n.toNat : Int) - m)
  (s / 2 ^ 28, BitVec.ofInt 32 s &&& RADIX_MASK)

/-- One step of the carry chain of `strong_reduce`, e.g. src/bignumber.rs:453-455. The `u64`
accumulator is a natural number. -/
def srAdd (carry : Nat) (n : W32) (m : Nat) : Nat × W32 :=
  let c := carry + (n.toNat + m)
  (c / 2 ^ 28, BitVec.ofNat 32 c &&& RADIX_MASK)

/-- `strong_reduce`, src/bignumber.rs:381-517. -/
def strong_reduce (n : BN) : BN :=
  let n := weak_reduce n
  let s0 := srSub 0 n.l0 0xfffffff
  let s1 := srSub s0.1 n.l1 0xfffffff
  let s2 := srSub s1.1 n.l2 0xfffffff
  let s3 := srSub s2.1 n.l3 0xfffffff
  let s4 := srSub s3.1 n.l4 0xfffffff
  let s5 := srSub s4.1 n.l5 0xfffffff
  let s6 := srSub s5.1 n.l6 0xfffffff
  let s7 := srSub s6.1 n.l7 0xfffffff
  let s8 := srSub s7.1 n.l8 0xffffffe
  let s9 := srSub s8.1 n.l9 0xfffffff
  let s10 := srSub s9.1 n.l10 0xfffffff
  let s11 := srSub s10.1 n.l11 0xfffffff
  let s12 := srSub s11.1 n.l12 0xfffffff
  let s13 := srSub s12.1 n.l13 0xfffffff
  let s14 := srSub s13.1 n.l14 0xfffffff
  let s15 := srSub s14.1 n.l15 0xfffffff
  let scarry_mask : W32 := BitVec.ofInt 32 s15.1 &&& RADIX_MASK
  let m : Nat := scarry_mask.toNat
  let c0 := srAdd 0 s0.2 m
  let c1 := srAdd c0.1 s1.2 m
  let c2 := srAdd c1.1 s2.2 m
  let c3 := srAdd c2.1 s3.2 m
  let c4 := srAdd c3.1 s4.2 m
  let c5 := srAdd c4.1 s5.2 m
  let c6 := srAdd c5.1 s6.2 m
  let c7 := srAdd c6.1 s7.2 m
  let c8 := srAdd c7.1 s8.2 (m &&& 0xfffffffffffffffe)
  let c9 := srAdd c8.1 s9.2 m
  let c10 := srAdd c9.1 s10.2 m
  let c11 := srAdd c10.1 s11.2 m
  let c12 := srAdd c11.1 s12.2 m
  let c13 := srAdd c12.1 s13.2 m
  let c14 := srAdd c13.1 s14.2 m
  let c15 := srAdd c14.1 s15.2 m
  ⟨c0.2, c1.2, c2.2, c3.2, c4.2, c5.2, c6.2, c7.2, c8.2,
    c9.2, c10.2, c11.2, c12.2, c13.2, c14.2, c15.2⟩

/-- `low_bit`, src/bignumber.rs:14-19. -/
def low_bit (x : BN) : W32 :=
  let y := strong_reduce x
  0 - (y.l0 &&& 1)

/-- `neg_raw`, src/bignumber.rs:121-141. -/
def neg_raw (x : BN) : BN := x.map (fun a => 0 - a)

/-- `add_raw`, src/bignumber.rs:158-178. -/
def add_raw (x y : BN) : BN := BN.map2 (fun a b => a + b) x y

/-- `sub_raw`, src/bignumber.rs:184-204. -/
def sub_raw (x y : BN) : BN := BN.map2 (fun a b => a - b) x y

/-- `neg`, src/bignumber.rs:143-145. -/
def neg (x : BN) : BN := weak_reduce (bias (neg_raw x) 2)

/-- `add`, src/bignumber.rs:180-182. -/
def add (x y : BN) : BN := weak_reduce (add_raw x y)

/-- `sub`, src/bignumber.rs:206-208. -/
def sub (x y : BN) : BN := weak_reduce (bias (sub_raw x y) 2)

/-- `sub_x_bias`, src/bignumber.rs:210-212. -/
def sub_x_bias (x y : BN) (amt : W32) : BN := weak_reduce (bias (sub_raw x y) amt)

/-- `square`, src/bignumber.rs:214-216. -/
def square (x : BN) : BN := karatsuba_square x

/-- `mul`, src/bignumber.rs:218-220. -/
def mul (x y : BN) : BN := karatsuba_mul x y

/-- `k` rounds of `n = square(&square(&n))`: the `while` loop of `square_n`, src/bignumber.rs:114-117. -/
def squarePairs : Nat → BN → BN
  | 0, n => n
  | k + 1, n => squarePairs k (square (square n))

/-- `square_n`, src/bignumber.rs:105-119. The loop counter goes down by two from an even number, so the loop
runs `y / 2` times. (All calls have `y ≥ 3`; for `y = 0` the Rust code would underflow.) -/
def square_n (x : BN) (y : Nat) : BN :=
  if y % 2 = 1 then squarePairs ((y - 1) / 2) (square x)
  else squarePairs ((y - 2) / 2) (square (square x))

/-- `isr`, src/bignumber.rs:73-103. The two dead assignments at the end are omitted. -/
def isr (x : BN) : BN :=
  let l1 := square x
  let l2 := mul x l1
  let l1 := square l2
  let l2 := mul x l1
  let l1 := square_n l2 3
  let l0 := mul l2 l1
  let l1 := square_n l0 3
  let l0 := mul l2 l1
  let l2 := square_n l0 9
  let l1 := mul l0 l2
  let l0 := square l1
  let l2 := mul x l0
  let l0 := square_n l2 18
  let l2 := mul l1 l0
  let l0 := square_n l2 37
  let l1 := mul l2 l0
  let l0 := square_n l1 37
  let l1 := mul l2 l0
  let l0 := square_n l1 111
  let l2 := mul l1 l0
  let l0 := square l2
  let l1 := mul x l0
  let l0 := square_n l1 223
  let l1 := mul l2 l0
  l1

/-- `invert`, src/bignumber.rs:64-70. -/
def invert (x : BN) : BN :=
  let t1 := square x
  let t2 := isr t1
  let t1 := square t2
  mul t1 x

/-- `conditional_swap`, src/bignumber.rs:349-355: the new values of `(n, x)`. -/
def conditional_swap (n x : BN) (swap : W32) : BN × BN :=
  let s := BN.map2 (fun xi ni => (xi ^^^ ni) &&& swap) x n
  (BN.map2 (fun ni si => ni ^^^ si) n s, BN.map2 (fun xi si => xi ^^^ si) x s)

/-- `constant_time_select`, src/bignumber.rs:147-152. -/
def constant_time_select (x y : BN) (first : W32) : BN :=
  (conditional_swap y x first).1

/-- `conditional_negate`, src/bignumber.rs:154-156. -/
def conditional_negate (n : BN) (negate : W32) : BN :=
  constant_time_select (neg n) n negate

/-- `mul_w`, src/bignumber.rs:222-339. The checked additions `x[15] + x[7]` (line 237) and
`accum0 += accum8 + n[8]`, `accum8 += n[0]` (lines 330, 334) are modelled as checked. -/
def mul_w (x : BN) (w : W64) : Rust BN := do
  let whi : W32 := lo32 (w >>> 28)
  let wlo : W32 := lo32 (w &&& 0xfffffff)
  let accum0 := u64 wlo * u64 x.l0
  let accum8 := u64 wlo * u64 x.l8
  let accum0 := accum0 + u64 whi * u64 x.l15
  let t ← addU32 x.l15 x.l7
  let accum8 := accum8 + u64 whi * u64 t
  let n0 := lo32 (accum0 &&& 0xfffffff)
  let accum0 := accum0 >>> 28
  let n8 := lo32 (accum8 &&& 0xfffffff)
  let accum8 := accum8 >>> 28
  let accum0 := accum0 + u64 wlo * u64 x.l1
  let accum8 := accum8 + u64 wlo * u64 x.l9
  let accum0 := accum0 + u64 whi * u64 x.l0
  let accum8 := accum8 + u64 whi * u64 x.l8
  let n1 := lo32 (accum0 &&& 0xfffffff)
  let accum0 := accum0 >>> 28
  let n9 := lo32 (accum8 &&& 0xfffffff)
  let accum8 := accum8 >>> 28
  let accum0 := accum0 + u64 wlo * u64 x.l2
  let accum8 := accum8 + u64 wlo * u64 x.l10
  let accum0 := accum0 + u64 whi * u64 x.l1
  let accum8 := accum8 + u64 whi * u64 x.l9
  let n2 := lo32 (accum0 &&& 0xfffffff)
  let accum0 := accum0 >>> 28
  let n10 := lo32 (accum8 &&& 0xfffffff)
  let accum8 := accum8 >>> 28
  let accum0 := accum0 + u64 wlo * u64 x.l3
  let accum8 := accum8 + u64 wlo * u64 x.l11
  let accum0 := accum0 + u64 whi * u64 x.l2
  let accum8 := accum8 + u64 whi * u64 x.l10
  let n3 := lo32 (accum0 &&& 0xfffffff)
  let accum0 := accum0 >>> 28
  let n11 := lo32 (accum8 &&& 0xfffffff)
  let accum8 := accum8 >>> 28
  let accum0 := accum0 + u64 wlo * u64 x.l4
  let accum8 := accum8 + u64 wlo * u64 x.l12
  let accum0 := accum0 + u64 whi * u64 x.l3
  let accum8 := accum8 + u64 whi * u64 x.l11
  let n4 := lo32 (accum0 &&& 0xfffffff)
  let accum0 := accum0 >>> 28
  let n12 := lo32 (accum8 &&& 0xfffffff)
  let accum8 := accum8 >>> 28
  let accum0 := accum0 + u64 wlo * u64 x.l5
  let accum8 := accum8 + u64 wlo * u64 x.l13
  let accum0 := accum0 + u64 whi * u64 x.l4
  let accum8 := accum8 + u64 whi * u64 x.l12
  let n5 := lo32 (accum0 &&& 0xfffffff)
  let accum0 := accum0 >>> 28
  let n13 := lo32 (accum8 &&& 0xfffffff)
  let accum8 := accum8 >>> 28
  let accum0 := accum0 + u64 wlo * u64 x.l6
  let accum8 := accum8 + u64 wlo * u64 x.l14
  let accum0 := accum0 + u64 whi * u64 x.l5
  let accum8 := accum8 + u64 whi * u64 x.l13
  let n6 := lo32 (accum0 &&& 0xfffffff)
  let accum0 := accum0 >>> 28
  let n14 := lo32 (accum8 &&& 0xfffffff)
  let accum8 := accum8 >>> 28
  let accum0 := accum0 + u64 wlo * u64 x.l7
  let accum8 := accum8 + u64 wlo * u64 x.l15
  let accum0 := accum0 + u64 whi * u64 x.l6
  let accum8 := accum8 + u64 whi * u64 x.l14
  let n7 := lo32 (accum0 &&& 0xfffffff)
  let accum0 := accum0 >>> 28
  let n15 := lo32 (accum8 &&& 0xfffffff)
  let accum8 := accum8 >>> 28
  let u ← addU64 accum8 (u64 n8)
  let accum0 ← addU64 accum0 u
  let n8 := lo32 (accum0 &&& 0xfffffff)
  let n9 := n9 + lo32 (accum0 >>> 28)
  let accum8 ← addU64 accum8 (u64 n0)
  let n0 := lo32 (accum8 &&& 0xfffffff)
  let n1 := n1 + lo32 (accum8 >>> 28)
  pure ⟨n0, n1, n2, n3, n4, n5, n6, n7, n8, n9, n10, n11, n12, n13, n14, n15⟩

/-- `mul_with_signed_curve_constant`, src/bignumber.rs:341-347. -/
def mul_with_signed_curve_constant (x : BN) (c : Int) : Rust BN :=
  if c > 0 then mul_w x (BitVec.ofInt 64 c)
  else do
    let r ← mul_w x (BitVec.ofInt 64 (-c))
    pure (sub BIG_ZERO r)

/-- `decaf_equal`, src/bignumber.rs:519-541. Limb 15 is not looked at. -/
def decaf_equal (n x : BN) : W32 :=
  let y := sub n x
  let y := strong_reduce y
  let ret : W32 := 0
  let ret := ret ||| y.l0
  let ret := ret ||| y.l1
  let ret := ret ||| y.l2
  let ret := ret ||| y.l3
  let ret := ret ||| y.l4
  let ret := ret ||| y.l5
  let ret := ret ||| y.l6
  let ret := ret ||| y.l7
  let ret := ret ||| y.l8
  let ret := ret ||| y.l9
  let ret := ret ||| y.l10
  let ret := ret ||| y.l11
  let ret := ret ||| y.l12
  let ret := ret ||| y.l13
  let ret := ret ||| y.l14
  is_zero_mask ret

/-- `decaf_const_time_select`, src/bignumber.rs:543-563. -/
def decaf_const_time_select (x y : BN) (neg : W32) : BN :=
  BN.map2 (fun a b => (a &&& ~~~neg) ||| (b &&& neg)) x y

/-- `decaf_cond_negate`, src/bignumber.rs:565-568. -/
def decaf_cond_negate (n : BN) (neg : W32) : BN :=
  let m := sub BIG_ZERO n
  decaf_const_time_select n m neg

/-- The inner `while fill < RADIX && j < FIELD_BYTES` loop of `dsa_like_deserialize`,
src/bignumber.rs:613-621, with `mask = 0` as in the only call, so that `sj` is `input[j]`.
The first argument bounds the number of iterations (each one increases `fill` by 8, so four suffice). -/
def desFill : Nat → Arr Byte 57 → Nat → Nat → W64 → Nat × Nat × W64
  | 0, _, fill, j, buffer => (fill, j, buffer)
  | k + 1, input, fill, j, buffer =>
    if h : fill < 28 ∧ j < 56 then
      let sj := input.1[j]'(by have := input.2; omega)
      desFill k input (fill + 8) (j + 1) (buffer ||| (sj.setWidth 64 <<< fill))
    else (fill, j, buffer)

/-- The loop `for i in 0..N_LIMBS` of `dsa_like_deserialize`, src/bignumber.rs:612-634, over the
remaining limb numbers and entries of `MODULUS`. The `i64` variable `scarry` always holds
a `u32` value and is modelled as one; `fill` is at least 28 when 28 is subtracted. Returns the limbs, the final `buffer` and the final `scarry`. -/
def desLoop (input : Arr Byte 57) : List (Nat × W32) → Nat → Nat → W64 → W32 → List W32 × W64 × W32
  | [], _, _, buffer, scarry => ([], buffer, scarry)
  | (i, m) :: rest, fill, j, buffer, scarry =>
    let (fill, j, buffer) := desFill 4 input fill j buffer
    let ni : W32 := if i ≥ 15 then lo32 buffer else lo32 (buffer &&& ((1 <<< 28) - 1))
    let fill := fill - 28
    let buffer := buffer >>> 28
    let scarry : W32 := ((scarry + ni - m) >>> 8) * 4
    let (ns, b, s) := desLoop input rest fill j buffer scarry
    (ni :: ns, b, s)

/-- `MODULUS`, src/constants32.rs:65-68. -/
def MODULUS : List W32 :=
  [0xffffff, 0xffffffff, 0xffffff, 0xffffffff, 0xffffff, 0xffffffff, 0xffffff, 0xffffffff,
    0xfffffe, 0xffffffff, 0xffffff, 0xffffffff, 0xffffff, 0xffffffff, 0xffffff, 0xffffffff]

/-- A list of 16 limbs as a field element. -/
def BN.ofList : List W32 → BN
  | [a0, a1, a2, a3, a4, a5, a6, a7, a8, a9, a10, a11, a12, a13, a14, a15] =>
    ⟨a0, a1, a2, a3, a4, a5, a6, a7, a8, a9, a10, a11, a12, a13, a14, a15⟩
  | _ => BIG_ZERO

/-- `dsa_like_deserialize(input, 0)`, src/bignumber.rs:604-639. -/
def dsa_like_deserialize (input : Arr Byte 57) : BN × W32 :=
  let (n, buffer, scarry) := desLoop input ((List.range 16).zip MODULUS) 0 0 0 0
  (BN.ofList n, is_zero_mask (lo32 buffer) &&& ~~~(is_zero_mask scarry))

/-- The loop of `dsa_like_serialize`, src/bignumber.rs:648-657: `k` remaining output bytes, `xs` the limbs
`x[j..]`. The counter `fill` never goes below zero because 56 * 8 = 16 * 28, so the checked `fill -= 8` is the truncated
subtraction. -/
def serLoop : Nat → List W32 → Nat → W64 → List Byte
  | 0, _, _, _ => []
  | k + 1, xs, fill, buffer =>
    match xs with
    | x :: xs' =>
      if fill < 8 then
        let buffer := buffer ||| (u64 x <<< fill)
        buffer.setWidth 8 :: serLoop k xs' (fill + 28 - 8) (buffer >>> 8)
      else buffer.setWidth 8 :: serLoop k (x :: xs') (fill - 8) (buffer >>> 8)
    | [] => buffer.setWidth 8 :: serLoop k [] (fill - 8) (buffer >>> 8)

theorem serLoop_length : ∀ k xs fill buffer, (serLoop k xs fill buffer).length = k
  | 0, _, _, _ => rfl
  | k + 1, xs, fill, buffer => by
    unfold serLoop
    split
    · split <;> simp [serLoop_length k]
    · simp [serLoop_length k]

/-- `dsa_like_serialize`, src/bignumber.rs:641-659. -/
def dsa_like_serialize (n : BN) : Arr Byte 56 :=
  ⟨serLoop 56 (strong_reduce n).toList 0 0, serLoop_length _ _ _ _⟩

end Ed448
