import Verif.Model.Lib

/-!
# The loops of the code, index by index, with every check

In the rest of the model the loops over arrays are recursions over lists, and some accumulators are integers. This file
transcribes the functions with such loops once more: as loops over indices that read and write arrays, with every index checked and with every `+`, `-` and `*` that the Rust text writes without `wrapping_` checked as in
a build with overflow checks. `Verif/Checked` proves that they return, without a panic, what the functions of the same names in
the rest of the model return.
-/

namespace Ed448

/-- `for i in is { body }`, with the mutable variables as the state. -/
def loop {σ : Type} (body : Nat → σ → Rust σ) : List Nat → σ → Rust σ
  | [], st => pure st
  | i :: is, st => do
    let st ← body i st
    loop body is st

/-- `for i in 0..n { body }`. -/
def forTo {σ : Type} (n : Nat) (st : σ) (body : Nat → σ → Rust σ) : Rust σ := loop body (List.range n) st

/-- `for i in (0..n).rev() { body }`. -/
def forRev {σ : Type} (n : Nat) (st : σ) (body : Nat → σ → Rust σ) : Rust σ := loop body (List.range n).reverse st

/-- `while cond { body }`; the first argument is fuel. -/
def while' {σ : Type} (cond : σ → Bool) (body : σ → Rust σ) : Nat → σ → Rust σ
  | 0, _ => .error .diverge
  | fuel + 1, st => if cond st then do
      let st ← body st
      while' cond body fuel st
    else pure st

/-- Range check of a `u64` result. -/
def chkU64 (x : Nat) : Rust Nat := if x < 2 ^ 64 then .ok x else .error .overflow

/-- Range check of a `u32` result. -/
def chkU32 (x : Nat) : Rust Nat := if x < 2 ^ 32 then .ok x else .error .overflow

/-- Range check of an `i32` result. -/
def chkI32 (x : Int) : Rust Int := if -2 ^ 31 ≤ x ∧ x < 2 ^ 31 then .ok x else .error .overflow

/-- Checked subtraction of unsigned numbers (`usize`, `u32`). -/
def subU (a b : Nat) : Rust Nat := if b ≤ a then .ok (a - b) else .error .overflow

/-- `&b[lo..hi]`. -/
def slice (b : List Byte) (lo hi : Nat) : Rust (List Byte) :=
  if lo ≤ hi ∧ hi ≤ b.length then .ok ((b.drop lo).take (hi - lo)) else .error .bounds

/-- `dst[lo..hi].copy_from_slice(src)`, with the range check of the slice and the length check of `copy_from_slice`. -/
def copyInto (dst : List Byte) (lo hi : Nat) (src : List Byte) : Rust (List Byte) :=
  if lo ≤ hi ∧ hi ≤ dst.length ∧ src.length = hi - lo then .ok (dst.take lo ++ src ++ dst.drop hi) else .error .bounds

/-- `x << n` of a `u32`: a shift by 32 or more panics. -/
def shl32 (x : W32) (n : Nat) : Rust W32 := if n < 32 then .ok (x <<< n) else .error .overflow

/-- `x >> n` of a `u32`: a shift by 32 or more panics. -/
def shr32 (x : W32) (n : Nat) : Rust W32 := if n < 32 then .ok (x >>> n) else .error .overflow

namespace Chk

/-! ## src/scalar.rs -/

/-- `sub_extra`, src/scalar.rs:29-47. -/
def sub_extra (minuend subtrahend : List W32) (carry : W32) : Rust (List W32) := do
  let r : List W32 := List.replicate 14 0
  let (r, chain) ← forTo 14 (r, (0 : Int)) fun i (r, chain) => do
    let m ← idx minuend i
    let s ← idx subtrahend i
    let d ← chkI64 ((m.toNat : Int) - (s.toNat : Int))
    let chain ← chkI64 (chain + d)
    let r ← setIdx r i (BitVec.ofInt 32 chain)
    pure (r, chain / 2 ^ 32)
  let borrow ← chkI64 (chain + (carry.toNat : Int))
  let (r, _) ← forTo 14 (r, (0 : Int)) fun i (r, chain) => do
    let ri ← idx r i
    let qi ← idx SCALAR_Q.1 i
    let d ← chkI64 ((ri.toNat : Int) + (u64 qi &&& BitVec.ofInt 64 borrow).toInt)
    let chain ← chkI64 (chain + d)
    let r ← setIdx r i (BitVec.ofInt 32 chain)
    pure (r, chain / 2 ^ 32)
  pure r

/-- `add`, src/scalar.rs:49-59. -/
def add (a b : List W32) : Rust (List W32) := do
  let r : List W32 := List.replicate 14 0
  let (r, chain) ← forTo 14 (r, (0 : Nat)) fun i (r, chain) => do
    let x ← idx a i
    let y ← idx b i
    let d ← chkU64 (x.toNat + y.toNat)
    let chain ← chkU64 (chain + d)
    let r ← setIdx r i (BitVec.ofNat 32 chain)
    pure (r, chain / 2 ^ 32)
  sub_extra r SCALAR_Q.1 (BitVec.ofNat 32 chain)

/-- `sub`, src/scalar.rs:61-64. -/
def sub (a b : List W32) : Rust (List W32) := sub_extra a b 0

/-- `halve`, src/scalar.rs:66-85. -/
def halve (s : List W32) : Rust (List W32) := do
  let s0 ← idx s 0
  let mask : W32 := 0 - (s0 &&& 1)
  let (s, chain) ← forTo 14 (s, (0 : W64)) fun i (s, chain) => do
    let si ← idx s i
    let qi ← idx SCALAR_Q.1 i
    let chain := chain + (u64 si + u64 (qi &&& mask))
    let s ← setIdx s i (lo32 chain)
    pure (s, chain >>> 32)
  let n ← subU 14 1
  let s ← forTo n s fun i s => do
    let si ← idx s i
    let sj ← idx s (i + 1)
    setIdx s i ((si >>> 1) ||| (sj <<< 31))
  let sl ← idx s n
  setIdx s n ((sl >>> 1) ||| lo32 (chain <<< 31))

/-- One iteration of the outer loop of `montgomery_multiply`, src/scalar.rs:91-125, on `(out, carry)`. -/
def mmStep (x y : List W32) (i : Nat) (st : List W32 × W32) : Rust (List W32 × W32) := do
  let xi ← idx x i
  let (out, chain) ← forTo 14 (st.1, (0 : W64)) fun j (out, chain) => do
    let yj ← idx y j
    let oj ← idx out j
    let chain := u64 xi * u64 yj + u64 oj + chain
    let out ← setIdx out j (lo32 chain)
    pure (out, chain >>> 32)
  let saved := lo32 chain
  let o0 ← idx out 0
  let multiplicand := o0 * MONTGOMERY_FACTOR
  let (out, chain) ← forTo 14 (out, (0 : W64)) fun j (out, chain) => do
    let qj ← idx SCALAR_Q.1 j
    let oj ← idx out j
    let chain := u64 multiplicand * u64 qj + u64 oj + chain
    let out ← if j > 0 then do
        let j1 ← subU j 1
        setIdx out j1 (lo32 chain)
      else pure out
    pure (out, chain >>> 32)
  let chain := (u64 saved + u64 st.2) + chain
  let out ← setIdx out 13 (lo32 chain)
  pure (out, lo32 (chain >>> 32))

/-- `montgomery_multiply`, src/scalar.rs:88-129. -/
def montgomery_multiply (x y : List W32) : Rust (List W32) := do
  let out : List W32 := List.replicate 14 0
  let (out, carry) ← forTo 14 (out, (0 : W32)) (mmStep x y)
  sub_extra out SCALAR_Q.1 carry

/-- `mul`, src/scalar.rs:131-134. -/
def mul (x y : List W32) : Rust (List W32) := do
  let s ← montgomery_multiply x y
  montgomery_multiply s SCALAR_R2.1

/-- The inner loop of `decode_short` with its `break`, src/scalar.rs:142-148, on `(out, k)`: once `k >= size` holds it stays true, so the iterations after the
`break` change nothing. -/
def packLoop (b : List Byte) (size : Nat) (k : Nat) : Rust (W32 × Nat) :=
  forTo 4 ((0 : W32), k) fun j (out, k) => do
    if k ≥ size then pure (out, k)
    else do
      let bk ← idx b k
      pure (out ||| (bk.setWidth 32 <<< (8 * j)), k + 1)

/-- `decode_short`, src/scalar.rs:137-152. -/
def decode_short (b : List Byte) (size : Nat) : Rust (List W32) := do
  let s : List W32 := List.replicate 14 0
  let (s, _) ← forTo 14 (s, (0 : Nat)) fun i (s, k) => do
    let (out, k) ← packLoop b size k
    let s ← setIdx s i out
    pure (s, k)
  pure s

/-- `decode`, src/scalar.rs:155-170, including the unused accumulator. -/
def decode (b : List Byte) : Rust (List W32) := do
  let s ← decode_short b 56
  let _accum ← forTo 14 (0 : Int) fun i accum => do
    let si ← idx s i
    let qi ← idx SCALAR_Q.1 i
    let d ← chkI64 ((si.toNat : Int) - (qi.toNat : Int))
    let accum ← chkI64 (accum + d)
    pure (accum / 2 ^ 32)
  mul s SCALAR_ONE.1

/-- `encode`, src/scalar.rs:173-186. -/
def encode (s : List W32) : Rust (List Byte) := do
  let dst : List Byte := List.replicate 57 0
  let (dst, _) ← forTo 14 (dst, (0 : Nat)) fun i st =>
    forTo 4 st fun j (dst, k) => do
      let si ← idx s i
      let b := si >>> (8 * j)
      let dst ← setIdx dst k (b.setWidth 8)
      pure (dst, k + 1)
  pure dst

/-- `decode_long` from line 198 on, src/scalar.rs:198-216. The fuel of the `while` loop is more than the length of the input. -/
def decode_long_from (b : List Byte) (size : Nat) : Rust (List W32) := do
  let b_len := b.length
  let sl ← slice b size b_len
  let n ← subU b_len size
  let res ← decode_short sl n
  if b_len = 56 then mul res SCALAR_ONE.1
  else do
    let (_, res) ← while' (fun st : Nat × List W32 => decide (st.1 > 0)) (fun (size, res) => do
        let size ← subU size 56
        let res ← montgomery_multiply res SCALAR_R2.1
        let sl ← slice b size b_len
        let y ← decode sl
        let res ← add res y
        pure (size, res)) (b_len + 1) (size, res)
    pure res

/-- `decode_long`, src/scalar.rs:188-217. -/
def decode_long (b : List Byte) : Rust (List W32) := do
  let b_len := b.length
  let size ← subU b_len (b_len % 56)
  if b_len = 0 then pure (List.replicate 14 0)
  else if size = b_len then do
    let size ← subU size 56
    decode_long_from b size
  else decode_long_from b size

/-! ## src/bignumber.rs -/

/-- `bias`, src/bignumber.rs:27-49. -/
def bias (n : BN) (b : W32) : Rust BN := do
  let co1 ← chkU32 (RADIX_MASK.toNat * b.toNat)
  let co2 ← subU co1 b.toNat
  let co1 : W32 := BitVec.ofNat 32 co1
  let co2 : W32 := BitVec.ofNat 32 co2
  pure ⟨n.l0 + co1, n.l1 + co1, n.l2 + co1, n.l3 + co1, n.l4 + co1, n.l5 + co1, n.l6 + co1,
    n.l7 + co1, n.l8 + co2, n.l9 + co1, n.l10 + co1, n.l11 + co1, n.l12 + co1, n.l13 + co1,
    n.l14 + co1, n.l15 + co1⟩

/-- The first `if` of `square_n`, src/bignumber.rs:107-113. -/
def squareFirst (x : BN) (y : Nat) : Rust (BN × Nat) :=
  if y % 2 ≠ 0 then do
    let y1 ← subU y 1
    pure (square x, y1)
  else do
    let y1 ← subU y 2
    pure (square (square x), y1)

/-- `square_n`, src/bignumber.rs:105-119. -/
def square_n (x : BN) (y : Nat) : Rust BN := do
  let (n, y) ← squareFirst x y
  let (n, _) ← while' (fun st : BN × Nat => decide (st.2 > 0)) (fun (n, y) => do
      let y1 ← subU y 2
      pure (square (square n), y1)) (y + 1) (n, y)
  pure n

/-- `conditional_swap`, src/bignumber.rs:349-355, on `(n, x)`. -/
def conditional_swap (n x : List W32) (swap : W32) : Rust (List W32 × List W32) :=
  forTo 16 (n, x) fun i (n, x) => do
    let xi ← idx x i
    let ni ← idx n i
    let s := (xi ^^^ ni) &&& swap
    let x ← setIdx x i (xi ^^^ s)
    let n ← setIdx n i (ni ^^^ s)
    pure (n, x)

/-- `scarry += i64::wrapping_sub(n[i] as i64, m); n[i] = scarry as u32 & RADIX_MASK; scarry >>= 28`, e.g.
src/bignumber.rs:385-387. -/
def srSub (scarry : Int) (n : W32) (m : Int) : Rust (Int × W32) := do
  let d := (BitVec.ofInt 64 (n.toNat : Int) - BitVec.ofInt 64 m).toInt
  let s ← chkI64 (scarry + d)
  pure (s / 2 ^ 28, BitVec.ofInt 32 s &&& RADIX_MASK)

/-- `carry += u64::wrapping_add(n[i] as u64, m); n[i] = carry as u32 & RADIX_MASK; carry >>= 28`, e.g.
src/bignumber.rs:453-455. -/
def srAdd (carry : Nat) (n : W32) (m : Nat) : Rust (Nat × W32) := do
  let d := (u64 n + BitVec.ofNat 64 m).toNat
  let c ← chkU64 (carry + d)
  pure (c / 2 ^ 28, BitVec.ofNat 32 c &&& RADIX_MASK)

/-- `strong_reduce`, src/bignumber.rs:381-517. -/
def strong_reduce (n : BN) : Rust BN := do
  let n := weak_reduce n
  let (scarry, n0) ← srSub 0 n.l0 0xfffffff
  let (scarry, n1) ← srSub scarry n.l1 0xfffffff
  let (scarry, n2) ← srSub scarry n.l2 0xfffffff
  let (scarry, n3) ← srSub scarry n.l3 0xfffffff
  let (scarry, n4) ← srSub scarry n.l4 0xfffffff
  let (scarry, n5) ← srSub scarry n.l5 0xfffffff
  let (scarry, n6) ← srSub scarry n.l6 0xfffffff
  let (scarry, n7) ← srSub scarry n.l7 0xfffffff
  let (scarry, n8) ← srSub scarry n.l8 0xffffffe
  let (scarry, n9) ← srSub scarry n.l9 0xfffffff
  let (scarry, n10) ← srSub scarry n.l10 0xfffffff
  let (scarry, n11) ← srSub scarry n.l11 0xfffffff
  let (scarry, n12) ← srSub scarry n.l12 0xfffffff
  let (scarry, n13) ← srSub scarry n.l13 0xfffffff
  let (scarry, n14) ← srSub scarry n.l14 0xfffffff
  let (scarry, n15) ← srSub scarry n.l15 0xfffffff
  let scarry_mask : W32 := BitVec.ofInt 32 scarry &&& RADIX_MASK
  let m : Nat := scarry_mask.toNat
  let (carry, n0) ← srAdd 0 n0 m
  let (carry, n1) ← srAdd carry n1 m
  let (carry, n2) ← srAdd carry n2 m
  let (carry, n3) ← srAdd carry n3 m
  let (carry, n4) ← srAdd carry n4 m
  let (carry, n5) ← srAdd carry n5 m
  let (carry, n6) ← srAdd carry n6 m
  let (carry, n7) ← srAdd carry n7 m
  let (carry, n8) ← srAdd carry n8 (m &&& 0xfffffffffffffffe)
  let (carry, n9) ← srAdd carry n9 m
  let (carry, n10) ← srAdd carry n10 m
  let (carry, n11) ← srAdd carry n11 m
  let (carry, n12) ← srAdd carry n12 m
  let (carry, n13) ← srAdd carry n13 m
  let (carry, n14) ← srAdd carry n14 m
  let (_, n15) ← srAdd carry n15 m
  pure ⟨n0, n1, n2, n3, n4, n5, n6, n7, n8, n9, n10, n11, n12, n13, n14, n15⟩

/-- The inner loop of `dsa_like_deserialize`, src/bignumber.rs:613-621, on `(fill, j, buffer)`. `sj` is a `usize`; a shift by 64 or more would
panic. -/
def desFill (input : List Byte) (mask : W64) (st : Nat × Nat × W64) : Rust (Nat × Nat × W64) :=
  while' (fun st : Nat × Nat × W64 => decide (st.1 < 28 ∧ st.2.1 < 56)) (fun (fill, j, buffer) => do
    let b ← idx input j
    let sj : W64 := b.setWidth 64
    let k ← subU 56 1
    let sj := if j = k then sj &&& ~~~mask else sj
    if fill < 64 then pure (fill + 8, j + 1, buffer ||| (sj <<< fill)) else .error .overflow) 5 st

/-- `dsa_like_deserialize`, src/bignumber.rs:604-639. The state is `(n, fill, j, buffer, scarry)`. -/
def dsa_like_deserialize (input : List Byte) (mask : W64) : Rust (List W32 × W32) := do
  let n : List W32 := List.replicate 16 0
  let (n, _, _, buffer, scarry) ← forTo 16 (n, (0 : Nat), (0 : Nat), (0 : W64), (0 : Int)) fun i (n, fill, j, buffer, scarry) => do
    let (fill, j, buffer) ← desFill input mask (fill, j, buffer)
    let k ← subU 16 1
    let ni : W32 := if i ≥ k then lo32 buffer else lo32 (buffer &&& ((1 <<< 28) - 1))
    let n ← setIdx n i ni
    let fill ← subU fill 28
    let buffer := buffer >>> 28
    let mi ← idx MODULUS i
    let t ← chkU32 (((BitVec.ofInt 32 scarry + ni - mi) >>> 8).toNat * 4)
    pure (n, fill, j, buffer, (t : Int))
  pure (n, is_zero_mask (lo32 buffer) &&& ~~~(is_zero_mask (BitVec.ofInt 32 scarry)))

/-- `if fill < 8 && j < N_LIMBS { .. }` in `dsa_like_serialize`, src/bignumber.rs:649-653, on `(fill, j, buffer)`. -/
def serFill (x : List W32) (fill j : Nat) (buffer : W64) : Rust (Nat × Nat × W64) :=
  if fill < 8 ∧ j < 16 then do
    let xj ← idx x j
    pure (fill + 28, j + 1, buffer ||| (u64 xj <<< fill))
  else pure (fill, j, buffer)

/-- `dsa_like_serialize`, src/bignumber.rs:641-659, after `x = strong_reduce(x)`: the state is `(res, fill, j, buffer)`. -/
def serialize (x : List W32) : Rust (List Byte) := do
  let res : List Byte := List.replicate 56 0
  let (res, _, _, _) ← forTo 56 (res, (0 : Nat), (0 : Nat), (0 : W64)) fun i (res, fill, j, buffer) => do
    let (fill, j, buffer) ← serFill x fill j buffer
    let res ← setIdx res i (buffer.setWidth 8)
    let fill ← subU fill 8
    pure (res, fill, j, buffer >>> 8)
  pure res

/-- `dsa_like_serialize`, src/bignumber.rs:641-659. -/
def dsa_like_serialize (n : BN) : Rust (List Byte) := do
  let x ← strong_reduce n
  serialize x.toList

/-! ## src/bignumber.rs: the operations that contain such checks -/

namespace BigNumber

/-- `neg`, src/bignumber.rs:143-145. -/
def neg (x : BN) : Rust BN := do
  let n ← bias (neg_raw x) 2
  pure (weak_reduce n)

/-- `sub`, src/bignumber.rs:206-208. -/
def sub (x y : BN) : Rust BN := do
  let n ← bias (sub_raw x y) 2
  pure (weak_reduce n)

/-- `sub_x_bias`, src/bignumber.rs:210-212. -/
def sub_x_bias (x y : BN) (amt : W32) : Rust BN := do
  let n ← bias (sub_raw x y) amt
  pure (weak_reduce n)

/-- `low_bit`, src/bignumber.rs:14-19. -/
def low_bit (x : BN) : Rust W32 := do
  let y ← strong_reduce x
  pure (0 - (y.l0 &&& 1))

/-- `isr`, src/bignumber.rs:73-103, including the two assignments at the end that are not used. -/
def isr (x : BN) : Rust BN := do
  let l1 := square x
  let l2 := Ed448.mul x l1
  let l1 := square l2
  let l2 := Ed448.mul x l1
  let l1 ← square_n l2 3
  let l0 := Ed448.mul l2 l1
  let l1 ← square_n l0 3
  let l0 := Ed448.mul l2 l1
  let l2 ← square_n l0 9
  let l1 := Ed448.mul l0 l2
  let l0 := square l1
  let l2 := Ed448.mul x l0
  let l0 ← square_n l2 18
  let l2 := Ed448.mul l1 l0
  let l0 ← square_n l2 37
  let l1 := Ed448.mul l2 l0
  let l0 ← square_n l1 37
  let l1 := Ed448.mul l2 l0
  let l0 ← square_n l1 111
  let l2 := Ed448.mul l1 l0
  let l0 := square l2
  let l1 := Ed448.mul x l0
  let l0 ← square_n l1 223
  let l1 := Ed448.mul l2 l0
  let l2 := square l1
  let _l0 := Ed448.mul l2 x
  pure l1

/-- `invert`, src/bignumber.rs:64-70. -/
def invert (x : BN) : Rust BN := do
  let t1 := square x
  let t2 ← isr t1
  let t1 := square t2
  pure (Ed448.mul t1 x)

/-- `constant_time_select`, src/bignumber.rs:147-152. -/
def constant_time_select (x y : BN) (first : W32) : Rust BN := do
  let (b, _) ← conditional_swap y.toList x.toList first
  pure (BN.ofList b)

/-- `conditional_negate`, src/bignumber.rs:154-156. -/
def conditional_negate (n : BN) (negate : W32) : Rust BN := do
  let m ← neg n
  constant_time_select m n negate

/-- `mul_with_signed_curve_constant`, src/bignumber.rs:341-347. -/
def mul_with_signed_curve_constant (x : BN) (c : Int) : Rust BN :=
  if c > 0 then mul_w x (BitVec.ofInt 64 c)
  else do
    let m ← chkI64 (-c)
    let r ← mul_w x (BitVec.ofInt 64 m)
    sub BIG_ZERO r

/-- `decaf_equal`, src/bignumber.rs:519-541. -/
def decaf_equal (n x : BN) : Rust W32 := do
  let y ← sub n x
  let y ← strong_reduce y
  let ret := y.l0 ||| y.l1 ||| y.l2 ||| y.l3 ||| y.l4 ||| y.l5 ||| y.l6 ||| y.l7 ||| y.l8 ||| y.l9 ||| y.l10 ||| y.l11 |||
    y.l12 ||| y.l13 ||| y.l14
  pure (is_zero_mask ret)

/-- `decaf_cond_negate`, src/bignumber.rs:565-568. -/
def decaf_cond_negate (n : BN) (neg : W32) : Rust BN := do
  let m ← sub BIG_ZERO n
  pure (decaf_const_time_select n m neg)

end BigNumber

/-! ## src/extended_point.rs -/

/-- `TwistedProjectedNiels::to_extended_point`, src/extended_point.rs:65-76. -/
def to_extended_point (p : PNiels) : Rust Pt := do
  let eu := Ed448.add p.n.b p.n.a
  let qy ← BigNumber.sub p.n.b p.n.a
  let qt := Ed448.mul qy eu
  let qx := Ed448.mul p.z qy
  let qy := Ed448.mul p.z eu
  let qz := square p.z
  pure ⟨qx, qy, qz, qt⟩

/-- `double_internal`, src/extended_point.rs:102-122. -/
def double_internal (p : Pt) (before_double : Bool) : Rust Pt := do
  let c := square p.x
  let a := square p.y
  let d := add_raw c a
  let t := add_raw p.x p.y
  let b := square t
  let b ← BigNumber.sub_x_bias b d 3
  let t ← BigNumber.sub a c
  let x := square p.z
  let z := add_raw x x
  let a ← BigNumber.sub_x_bias z t 4
  let x := Ed448.mul a b
  let z := Ed448.mul t a
  let y := Ed448.mul t d
  let t := if !before_double then Ed448.mul b d else t
  pure ⟨x, y, z, t⟩

/-- `mod_equal`, src/extended_point.rs:124-130. -/
def mod_equal (p p2 : Pt) : Rust Bool := do
  let a := Ed448.mul p.y p2.x
  let b := Ed448.mul p.x p2.y
  let valid ← BigNumber.decaf_equal a b
  pure (valid == 0xffffffff)

/-- `add_niels_to_extended`, src/extended_point.rs:132-148. -/
def add_niels_to_extended (p : Pt) (np : TwistedNiels) (before_double : Bool) : Rust Pt := do
  let b ← BigNumber.sub p.y p.x
  let a := Ed448.mul np.a b
  let b := add_raw p.x p.y
  let y := Ed448.mul np.b b
  let x := Ed448.mul np.c p.t
  let c := add_raw a y
  let b ← BigNumber.sub y a
  let y ← BigNumber.sub p.z x
  let a := add_raw x p.z
  let z := Ed448.mul a y
  let x := Ed448.mul y b
  let y := Ed448.mul a c
  let t := if !before_double then Ed448.mul b c else p.t
  pure ⟨x, y, z, t⟩

/-- `sub_niels_from_extended_point`, src/extended_point.rs:150-166. -/
def sub_niels_from_extended_point (p : Pt) (np : TwistedNiels) (before_double : Bool) : Rust Pt := do
  let b ← BigNumber.sub p.y p.x
  let a := Ed448.mul np.b b
  let b := add_raw p.x p.y
  let y := Ed448.mul np.a b
  let x := Ed448.mul np.c p.t
  let c := add_raw a y
  let b ← BigNumber.sub y a
  let y := add_raw p.z x
  let a ← BigNumber.sub p.z x
  let z := Ed448.mul a y
  let x := Ed448.mul y b
  let y := Ed448.mul a c
  let t := if !before_double then Ed448.mul b c else p.t
  pure ⟨x, y, z, t⟩

/-- `add_projected_niels_to_extended`, src/extended_point.rs:168-176. -/
def add_projected_niels_to_extended (p : Pt) (np : PNiels) (before_double : Bool) : Rust Pt :=
  let tmp := Ed448.mul p.z np.z
  add_niels_to_extended { p with z := tmp } np.n before_double

/-- `sub_projected_niels_from_extended_point`, src/extended_point.rs:178-186. -/
def sub_projected_niels_from_extended_point (p : Pt) (p2 : PNiels) (before_double : Bool) : Rust Pt :=
  let tmp := Ed448.mul p.z p2.z
  sub_niels_from_extended_point { p with z := tmp } p2.n before_double

/-- `eddsa_like_encode`, src/extended_point.rs:188-212. -/
def eddsa_like_encode (p : Pt) : Rust (List Byte) := do
  let x := square p.x
  let t := square p.y
  let u := Ed448.add x t
  let z := Ed448.add p.y p.x
  let y := square z
  let y ← BigNumber.sub u y
  let z ← BigNumber.sub t x
  let x := square p.z
  let t := Ed448.add x x
  let t ← BigNumber.sub t z
  let x := Ed448.mul t y
  let y := Ed448.mul z u
  let z := Ed448.mul u t
  let z ← BigNumber.invert z
  let t := Ed448.mul x z
  let x := Ed448.mul y z
  let ser ← dsa_like_serialize x
  let res ← copyInto (List.replicate 57 0) 0 56 ser
  let low ← BigNumber.low_bit t
  setIdx res 56 (((0x80 : W32) &&& low).setWidth 8)

/-- `is_on_curve`, src/extended_point.rs:214-230. -/
def is_on_curve (p : Pt) : Rust Bool := do
  let a := Ed448.mul p.x p.y
  let b := Ed448.mul p.z p.t
  let valid ← BigNumber.decaf_equal a b
  let a := square p.x
  let b := square p.y
  let a ← BigNumber.sub b a
  let b := square p.t
  let k ← chkI64 (1 - EDWARDS_D)
  let c ← mul_w b (BitVec.ofInt 64 k)
  let b := square p.z
  let b ← BigNumber.sub b c
  let v2 ← BigNumber.decaf_equal a b
  let valid := valid &&& v2
  let v3 ← BigNumber.decaf_equal p.z BIG_ZERO
  let valid := valid &&& ~~~v3
  pure (valid == 0xffffffff)

/-- `to_projected_niels`, src/extended_point.rs:232-242. -/
def to_projected_niels (p : Pt) : Rust PNiels := do
  let a ← BigNumber.sub p.y p.x
  let b := Ed448.add p.x p.y
  let k ← chkI64 (2 * EDWARDS_D)
  let k ← chkI64 (k - 2)
  let c ← BigNumber.mul_with_signed_curve_constant p.t k
  let z := Ed448.add p.z p.z
  pure ⟨⟨a, b, c⟩, z⟩

/-- `TwistedNiels::conditional_negate`, src/extended_point.rs:420-423. -/
def conditional_negate (n : TwistedNiels) (neg : W32) : Rust TwistedNiels := do
  let (a, b) ← conditional_swap n.a.toList n.b.toList neg
  let c ← BigNumber.conditional_negate n.c neg
  pure ⟨BN.ofList a, BN.ofList b, c⟩

/-- `TwistedNiels::to_extended`, src/extended_point.rs:425-433. -/
def to_extended (n : TwistedNiels) : Rust Pt := do
  let y := Ed448.add n.b n.a
  let x ← BigNumber.sub n.b n.a
  let t := Ed448.mul y x
  pure ⟨x, y, BIG_ONE, t⟩

/-- `prepare_fixed_window`, src/extended_point.rs:244-259: the state of the loop is `(out, p_original)`. -/
def prepare_fixed_window (p : Pt) : Rust (List PNiels) := do
  let p_temp ← double_internal p false
  let pn ← to_projected_niels p_temp
  let e ← to_projected_niels p
  let (out, _) ← loop (fun _ (out, p) => do
    let p ← add_projected_niels_to_extended p pn false
    let e ← to_projected_niels p
    pure (out ++ [e], p)) (List.range' 1 15) ([e], p)
  pure out

/-- The bits of a window, src/extended_point.rs:279-283. -/
def windowWord (s : List W32) (i1 : Nat) : Rust W32 := do
  let w ← idx s (i1 / 32)
  let bits ← shr32 w (i1 % 32)
  let a ← subU 32 5
  let b ← subU 14 1
  if i1 % 32 ≥ a ∧ i1 / 32 < b then do
    let w' ← idx s (i1 / 32 + 1)
    let n ← subU 32 (i1 % 32)
    let h ← shl32 w' n
    pure (bits ^^^ h)
  else pure bits

/-- `if first { .. } else { .. }`, src/extended_point.rs:291-300. -/
def windowAdd (p_neg : PNiels) (first : Bool) (out : Pt) : Rust Pt :=
  if first then to_extended_point p_neg
  else do
    let n ← subU 5 1
    let out ← forTo n out fun _ out => double_internal out true
    let out ← double_internal out false
    add_projected_niels_to_extended out p_neg false

/-- The body of the loop of `point_scalar_mul`, src/extended_point.rs:278-303, on `(out, first, i)`. -/
def windowBody (multiples : List PNiels) (s : List W32) (st : Pt × Bool × Int) : Rust (Pt × Bool × Int) := do
  let (out, first, i) := st
  let i1 := asUsize i
  let bits ← windowWord s i1
  let window_mask ← subU (1 <<< 5) 1
  let bits := bits &&& BitVec.ofNat 32 window_mask
  let n ← subU 5 1
  let b ← shr32 bits n
  let inv := b - 1
  let bits := bits ^^^ inv
  let e ← idx multiples (bits.toNat &&& (window_mask >>> 1))
  let n ← conditional_negate e.n inv
  let p_neg : PNiels := { e with n := n }
  let out ← windowAdd p_neg first out
  let i ← chkI32 (i - 5)
  pure (out, false, i)

/-- `point_scalar_mul`, src/extended_point.rs:261-305. -/
def point_scalar_mul (p : Pt) (s : List W32) : Rust Pt := do
  let scalar1x ← add s scalar_adjustment.1
  let scalar1x ← halve scalar1x
  let multiples ← prepare_fixed_window p
  let a ← subU 446 1
  let b ← subU 446 (a % 5)
  let c ← subU b 1
  let (out, _) ← while' (fun st : Pt × Bool × Int => decide (st.2.2 ≥ 0)) (windowBody multiples scalar1x) 91 (Pt.zero, true, (c : Int))
  pure out

/-- `trailing_zeroes_32`, src/extended_point.rs:436-446; the loop runs at most 31 times. -/
def trailing_zeroes_32 (n : W32) : Rust Nat :=
  if n = 0 then pure 32
  else do
    let (_, r) ← while' (fun st : W32 × Nat => decide (st.1.toNat % 2 = 0)) (fun (n, r) => do
      let r ← chkU32 (r + 1)
      pure (n / 2, r)) 32 (n, 0)
    pure r

/-- `delta`, src/extended_point.rs:467-470. -/
def wnafDelta (table_bits : Nat) (odd : W32) : Rust Int := do
  let one ← shl32 1 (table_bits + 1)
  let m ← chkI32 (one.toInt - 1)
  let delta := (odd &&& BitVec.ofInt 32 m).toInt
  if odd &&& one ≠ 0 then chkI32 (delta - one.toInt) else pure delta

/-- The body of the inner loop of `recode_wnaf`, src/extended_point.rs:465-474, on `(control, position, current)`. -/
def wnafBody (table_bits w : Nat) (st : List SmvtControl × Nat × W64) : Rust (List SmvtControl × Nat × W64) := do
  let (control, position, current) := st
  let pos ← trailing_zeroes_32 (lo32 current)
  let odd ← shr32 (lo32 current) pos
  let delta ← wnafDelta table_bits odd
  let shifted ← shl32 (BitVec.ofInt 32 delta) pos
  let c ← chkI64 (current.toInt - shifted.toInt)
  let w1 ← chkI64 ((w : Int) - 1)
  let w16 ← chkI64 (16 * w1)
  let power ← chkI64 ((pos : Int) + w16)
  let control ← setIdx control position ⟨power, delta⟩
  let position ← subU position 1
  pure (control, position, BitVec.ofInt 64 c)

/-- `if w < 28 { .. }`, src/extended_point.rs:461-463. -/
def wnafAdd (s : List W32) (w : Nat) (current : W64) : Rust W64 :=
  if w < 28 then do
    let sw ← idx s (w / 2)
    let x ← shr32 sw (16 * (w % 2))
    let x ← shl32 x 16
    let c ← chkU64 (current.toNat + (u64 x).toNat)
    pure (BitVec.ofNat 64 c)
  else pure current

/-- `recode_wnaf`, src/extended_point.rs:448-485: the new contents of `control` and the returned value. -/
def recode_wnaf (control : List SmvtControl) (s : List W32) (table_bits : Nat) : Rust (List SmvtControl × Nat) := do
  let table_size := 446 / (table_bits + 1) + 3
  let position ← subU table_size 1
  let control ← setIdx control position ⟨-1, 0⟩
  let position ← subU position 1
  let s0 ← idx s 0
  let current : W64 := u64 (s0 &&& 0xffff)
  let (control, position, _) ← loop (fun w (control, position, current) => do
    let current ← wnafAdd s w current
    let (control, position, current) ← while' (fun st : List SmvtControl × Nat × W64 => decide (st.2.2 &&& 0xffff ≠ 0))
      (wnafBody table_bits w) 17 (control, position, current)
    pure (control, position, current >>> 16)) (List.range' 1 29) (control, position, current)
  let position := position + 1
  let n ← subU table_size position
  let control ← forTo n control fun i control => do
    let e ← idx control (i + position)
    setIdx control i e
  let r ← subU n 1
  pure (control, r)

/-- `decaf_prepare_wnaf_table`, src/extended_point.rs:487-509: the new contents of `dst`. -/
def decaf_prepare_wnaf_table (dst : List PNiels) (p : Pt) (table_size : Nat) : Rust (List PNiels) := do
  let d0 ← to_projected_niels p
  let dst ← setIdx dst 0 d0
  if table_size = 0 then pure dst
  else do
    let p ← double_internal p false
    let tw_op ← to_projected_niels p
    let d0 ← idx dst 0
    let p ← add_projected_niels_to_extended p d0 false
    let d1 ← to_projected_niels p
    let dst ← setIdx dst 1 d1
    let (dst, _) ← loop (fun i (dst, p) => do
      let p ← add_projected_niels_to_extended p tw_op false
      let e ← to_projected_niels p
      let dst ← setIdx dst i e
      pure (dst, p)) (List.range' 2 (min (1 <<< table_size) dst.length - 2)) (dst, p)
    pure dst

/-- The index `a >> 1` of a digit and its sign, src/extended_point.rs:374-379, 385-390: `a = addend as usize` or
`a = (-addend) as usize`. -/
def digitIndex (addend : Int) : Rust Nat :=
  if addend > 0 then pure (asUsize addend >>> 1)
  else do
    let m ← chkI64 (-addend)
    pure (asUsize m >>> 1)

/-- `if cv { .. }`, src/extended_point.rs:373-383, on `(out, contv)`. -/
def stepVar (precmp_var : List PNiels) (i : Int) (ev : SmvtControl) (cv cp : Bool) (out : Pt) (contv : Nat) : Rust (Pt × Nat) :=
  if cv then do
    let k ← digitIndex ev.addend
    let e ← idx precmp_var k
    let out ← (if ev.addend > 0 then add_projected_niels_to_extended out e (i != 0 && !cp)
      else sub_projected_niels_from_extended_point out e (i != 0 && !cp))
    pure (out, contv + 1)
  else pure (out, contv)

/-- `if cp { .. }`, src/extended_point.rs:385-394, on `(out, contp)`. -/
def stepPre (i : Int) (ep : SmvtControl) (cp : Bool) (out : Pt) (contp : Nat) : Rust (Pt × Nat) :=
  if cp then do
    let k ← digitIndex ep.addend
    let e ← idx DECAF_WNAF_TABLE k
    let out ← (if ep.addend > 0 then add_niels_to_extended out e (i != 0) else sub_niels_from_extended_point out e (i != 0))
    pure (out, contp + 1)
  else pure (out, contp)

/-- The body of the loop of `point_double_scalamul_non_secret`, src/extended_point.rs:368-397, on
`(out, i, contv, contp)`. -/
def doubleBody (control_var control_pre : List SmvtControl) (precmp_var : List PNiels) (st : Pt × Int × Nat × Nat) :
    Rust (Pt × Int × Nat × Nat) := do
  let (out, i, contv, contp) := st
  let ev ← idx control_var contv
  let ep ← idx control_pre contp
  let cv : Bool := i == ev.power
  let cp : Bool := i == ep.power
  let out ← double_internal out (i != 0 && !(cv || cp))
  let (out, contv) ← stepVar precmp_var i ev cv cp out contv
  let (out, contp) ← stepPre i ep cp out contp
  let i ← chkI64 (i - 1)
  pure (out, i, contv, contp)

/-- The first digits, src/extended_point.rs:340-361: `(out, i, contv, contp)`. -/
def firstDigits (v0 p0 : SmvtControl) (precmp_var : List PNiels) : Rust (Pt × Int × Nat × Nat) :=
  let index := asUsize (v0.addend / 2)
  let i := v0.power
  if i > p0.power then do
    let e ← idx precmp_var index
    let out ← to_extended_point e
    pure (out, i, 1, 0)
  else if i = p0.power ∧ i ≥ 0 then do
    let e ← idx precmp_var index
    let out ← to_extended_point e
    let f ← idx DECAF_WNAF_TABLE (asUsize p0.addend >>> 1)
    let out ← add_niels_to_extended out f (i != 0)
    pure (out, i, 1, 1)
  else do
    let f ← idx DECAF_WNAF_TABLE (asUsize p0.addend >>> 1)
    let out ← to_extended f
    pure (out, p0.power, 0, 1)

/-- `point_double_scalamul_non_secret`, src/extended_point.rs:307-402. The `while` loop runs `i` times, where `i` is the first exponent. -/
def point_double_scalamul_non_secret (p : Pt) (scalar_pre scalar_var : List W32) : Rust Pt := do
  let (control_pre, _) ← recode_wnaf (List.replicate 77 ⟨0, 0⟩) scalar_pre 5
  let (control_var, _) ← recode_wnaf (List.replicate 115 ⟨0, 0⟩) scalar_var 3
  let precmp_var ← decaf_prepare_wnaf_table (List.replicate 8 PNiels.zero) p 3
  let v0 ← idx control_var 0
  let p0 ← idx control_pre 0
  let (out, i, contv, contp) ← firstDigits v0 p0 precmp_var
  if i < 0 then pure Pt.identity
  else do
    let i ← chkI64 (i - 1)
    let (out, _) ← while' (fun st : Pt × Int × Nat × Nat => decide (st.2.1 ≥ 0)) (doubleBody control_var control_pre precmp_var)
      ((i + 1).toNat + 1) (out, i, contv, contp)
    pure out

/-- The loop over the teeth, src/extended_point.rs:582-588. -/
def combTab (s : List W32) (i j : Nat) : Rust W32 :=
  forTo 5 (0 : W32) fun k tab =>
    let bit := i + 18 * (k + j * 5)
    if bit < 446 then do
      let w ← idx s (bit / 32)
      let b ← shr32 w (bit % 32)
      let t ← shl32 (b &&& 1) k
      pure (tab ||| t)
    else pure tab

/-- Selection of a table entry, src/extended_point.rs:582-596. -/
def combSelect (s : List W32) (i j : Nat) : Rust TwistedNiels := do
  let tab ← combTab s i j
  let n ← subU 5 1
  let invert ← chkI32 (tab.toInt / 2 ^ n - 1)
  let tab := tab ^^^ BitVec.ofInt 32 invert
  let m ← subU (1 <<< n) 1
  let tab := tab &&& BitVec.ofNat 32 m
  let index := (j <<< n) + tab.toNat
  let np ← idx DECAF_PRECOMP_TABLE index
  conditional_negate np (BitVec.ofInt 32 invert)

/-- `precomputed_scalar_mul`, src/extended_point.rs:570-606. -/
def precomputed_scalar_mul (s : List W32) : Rust Pt := do
  let scalar2 ← add s scalar_adjustment.1
  let scalar2 ← halve scalar2
  forRev 18 Pt.zero fun i p => do
    let l ← subU 18 1
    let p ← (if i ≠ l then double_internal p false else pure p)
    forTo 5 p fun j p => do
      let np ← combSelect scalar2 i j
      let l5 ← subU 5 1
      if i ≠ l ∨ j ≠ 0 then add_niels_to_extended p np (j == l5 && i != 0) else to_extended np

end Chk

end Ed448
