import Verif.Model.LoopsApi

/-!
# What an observer of the control flow and of the memory accesses sees

The functions used to derive public keys and to sign, once more, as in `Verif/Model/Loops.lean` and `Verif/Model/LoopsApi.lean`,
but recording what an observer who shares the processor may learn: the outcome of every `if` and of every test of a `while` loop, the
position of every array access, and the lengths of what is hashed. Accesses to the precomputed table have their own event. The text of the functions is that of the two files; what is new are the
calls of `branch`. `Verif/Leak/Result.lean` proves that the results are those of the functions without the record.

Not recorded: accesses at literal positions in the code without loops (`weak_reduce`, `mul`, `square`, `add_raw`, ...), where the Rust text has no branch and
no computed index, the tests of the overflow and bounds checks (they never fail, C10 and C43), and what SHAKE256 does with its input.
An element that one pass of a loop reads more than once (`x[i] ^= s` after `x[i]` in `conditional_swap`, `x[i]` in the inner loop of
`montgomery_multiply`) is recorded at its first read, and `&&` and `||` in a test count as one branch.
Arithmetic on words is taken to run in constant time.
-/

namespace Ed448

/-- What an observer sees. -/
inductive Event where
  /-- An `if` or the test of a `while` loop. -/
  | branch (b : Bool)
  /-- A read access at a position of an array. -/
  | read (i : Nat)
  /-- A write access at a position of an array. -/
  | write (i : Nat)
  /-- A copy of the bytes in a range. -/
  | copy (lo hi : Nat)
  /-- A read access at a position of the precomputed table. -/
  | table (i : Nat)
  /-- A call of SHAKE256: the lengths of input and output. -/
  | hash (input output : Nat)
  deriving DecidableEq, Repr

/-- A computation with its record. -/
structure Leak (α : Type) where
  /-- What was observed. -/
  events : List Event
  /-- What was computed. -/
  result : Rust α

namespace Leak

/-- The record of the second computation follows that of the first. -/
def andThen {α β : Type} (x : Leak α) (f : α → Leak β) : Leak β :=
  ⟨x.events ++ (match x.result with
    | .ok a => (f a).events
    | .error _ => []), x.result >>= fun a => (f a).result⟩

instance : Monad Leak where
  pure a := ⟨[], .ok a⟩
  bind := andThen

/-- A computation without a record. -/
def silent {α : Type} (x : Rust α) : Leak α := ⟨[], x⟩

/-- `if b { .. }`. -/
def branch (b : Bool) : Leak Unit := ⟨[.branch b], .ok ()⟩

/-- Indexing `a[i]` of an array or `Vec`. -/
def idx {α : Type} (l : List α) (i : Nat) : Leak α := ⟨[.read i], Ed448.idx l i⟩

/-- Assignment `a[i] = x` in an array or `Vec`. -/
def setIdx {α : Type} (l : List α) (i : Nat) (x : α) : Leak (List α) := ⟨[.write i], Ed448.setIdx l i x⟩

/-- `DecafPrecompTable::lookup`, src/decaf_combs_32.rs:11-14. -/
def lookup (l : List TwistedNiels) (i : Nat) : Leak TwistedNiels := ⟨[.table i], Ed448.idx l i⟩

/-- `&b[lo..hi]`. -/
def slice (b : List Byte) (lo hi : Nat) : Leak (List Byte) := ⟨[.copy lo hi], Ed448.slice b lo hi⟩

/-- `dst[lo..hi].copy_from_slice(src)`. -/
def copyInto (dst : List Byte) (lo hi : Nat) (src : List Byte) : Leak (List Byte) := ⟨[.copy lo hi], Ed448.copyInto dst lo hi src⟩

/-- `for i in is { body }`. -/
def loop {σ : Type} (body : Nat → σ → Leak σ) : List Nat → σ → Leak σ
  | [], st => pure st
  | i :: is, st => do
    let st ← body i st
    loop body is st

/-- `for i in 0..n { body }`. -/
def forTo {σ : Type} (n : Nat) (st : σ) (body : Nat → σ → Leak σ) : Leak σ := loop body (List.range n) st

/-- `for i in (0..n).rev() { body }`. -/
def forRev {σ : Type} (n : Nat) (st : σ) (body : Nat → σ → Leak σ) : Leak σ := loop body (List.range n).reverse st

/-- `while cond { body }`; the first argument is fuel. -/
def while' {σ : Type} (cond : σ → Bool) (body : σ → Leak σ) : Nat → σ → Leak σ
  | 0, _ => silent (.error .diverge)
  | fuel + 1, st => do
    branch (cond st)
    if cond st then do
      let st ← body st
      while' cond body fuel st
    else pure st

/-- Range check of an `i64` result. -/
def chkI64 (x : Int) : Leak Int := silent (Ed448.chkI64 x)

/-- Range check of a `u64` result. -/
def chkU64 (x : Nat) : Leak Nat := silent (Ed448.chkU64 x)

/-- Range check of a `u32` result. -/
def chkU32 (x : Nat) : Leak Nat := silent (Ed448.chkU32 x)

/-- Range check of an `i32` result. -/
def chkI32 (x : Int) : Leak Int := silent (Ed448.chkI32 x)

/-- Checked subtraction of unsigned numbers. -/
def subU (a b : Nat) : Leak Nat := silent (Ed448.subU a b)

/-- `x << n` of a `u32`. -/
def shl32 (x : W32) (n : Nat) : Leak W32 := silent (Ed448.shl32 x n)

/-- `x >> n` of a `u32`. -/
def shr32 (x : W32) (n : Nat) : Leak W32 := silent (Ed448.shr32 x n)

/-- `sha3`, src/eddsa.rs:19-24. -/
def sha3 (xof : Xof) (input : List Byte) (n : Nat) : Leak (List Byte) := ⟨[.hash input.length n], .ok (Ed448.sha3 xof input n).1⟩

/-- `hash_with_dom`, src/eddsa.rs:26-35. -/
def hash_with_dom (xof : Xof) (input : List Byte) (n : Nat) : Leak (List Byte) :=
  ⟨[.hash (10 + input.length) n], .ok (Ed448.hash_with_dom xof input n).1⟩

/-! ## src/scalar.rs -/

/-- `sub_extra`, src/scalar.rs:29-47. -/
def sub_extra (minuend subtrahend : List W32) (carry : W32) : Leak (List W32) := do
  let r : List W32 := List.replicate 14 0
  let (r, chain) ← forTo 14 (r, (0 : Int)) fun i (r, chain) => do
    let m ← idx minuend i
    let s ← idx subtrahend i
    let d ← chkI64 ((m.toNat : Int) - (s.toNat : Int))
    let chain ← chkI64 (chain + d)
    let r ← setIdx r i (BitVec.ofInt 32 chain)
    pure (r, chain / 2 ^ 32)
  let borrow ← chkI64 (chain + (carry.toNat : Int))
  let (r, _) ← forTo 14 (r, (0 : Int)) fun i (r, chain) => do
    let ri ← idx r i
    let qi ← idx SCALAR_Q.1 i
    let d ← chkI64 ((ri.toNat : Int) + (u64 qi &&& BitVec.ofInt 64 borrow).toInt)
    let chain ← chkI64 (chain + d)
    let r ← setIdx r i (BitVec.ofInt 32 chain)
    pure (r, chain / 2 ^ 32)
  pure r

/-- `add`, src/scalar.rs:49-59. -/
def add (a b : List W32) : Leak (List W32) := do
  let r : List W32 := List.replicate 14 0
  let (r, chain) ← forTo 14 (r, (0 : Nat)) fun i (r, chain) => do
    let x ← idx a i
    let y ← idx b i
    let d ← chkU64 (x.toNat + y.toNat)
    let chain ← chkU64 (chain + d)
    let r ← setIdx r i (BitVec.ofNat 32 chain)
    pure (r, chain / 2 ^ 32)
  sub_extra r SCALAR_Q.1 (BitVec.ofNat 32 chain)

/-- `halve`, src/scalar.rs:66-85. -/
def halve (s : List W32) : Leak (List W32) := do
  let s0 ← idx s 0
  let mask : W32 := 0 - (s0 &&& 1)
  let (s, chain) ← forTo 14 (s, (0 : W64)) fun i (s, chain) => do
    let si ← idx s i
    let qi ← idx SCALAR_Q.1 i
    let chain := chain + (u64 si + u64 (qi &&& mask))
    let s ← setIdx s i (lo32 chain)
    pure (s, chain >>> 32)
  let n ← subU 14 1
  let s ← forTo n s fun i s => do
    let si ← idx s i
    let sj ← idx s (i + 1)
    setIdx s i ((si >>> 1) ||| (sj <<< 31))
  let sl ← idx s n
  setIdx s n ((sl >>> 1) ||| lo32 (chain <<< 31))

/-- One iteration of the outer loop of `montgomery_multiply`, src/scalar.rs:91-125, on `(out, carry)`. -/
def mmStep (x y : List W32) (i : Nat) (st : List W32 × W32) : Leak (List W32 × W32) := do
  let xi ← idx x i
  let (out, chain) ← forTo 14 (st.1, (0 : W64)) fun j (out, chain) => do
    let yj ← idx y j
    let oj ← idx out j
    let chain := u64 xi * u64 yj + u64 oj + chain
    let out ← setIdx out j (lo32 chain)
    pure (out, chain >>> 32)
  let saved := lo32 chain
  let o0 ← idx out 0
  let multiplicand := o0 * MONTGOMERY_FACTOR
  let (out, chain) ← forTo 14 (out, (0 : W64)) fun j (out, chain) => do
    let qj ← idx SCALAR_Q.1 j
    let oj ← idx out j
    let chain := u64 multiplicand * u64 qj + u64 oj + chain
    branch (decide (j > 0))
    let out ← if j > 0 then do
        let j1 ← subU j 1
        setIdx out j1 (lo32 chain)
      else pure out
    pure (out, chain >>> 32)
  let chain := (u64 saved + u64 st.2) + chain
  let out ← setIdx out 13 (lo32 chain)
  pure (out, lo32 (chain >>> 32))

/-- `montgomery_multiply`, src/scalar.rs:88-129. -/
def montgomery_multiply (x y : List W32) : Leak (List W32) := do
  let out : List W32 := List.replicate 14 0
  let (out, carry) ← forTo 14 (out, (0 : W32)) (mmStep x y)
  sub_extra out SCALAR_Q.1 carry

/-- `mul`, src/scalar.rs:131-134. -/
def mul (x y : List W32) : Leak (List W32) := do
  let s ← montgomery_multiply x y
  montgomery_multiply s SCALAR_R2.1

/-- The inner loop of `decode_short`, src/scalar.rs:142-148, on `(out, k)`, for the `j` that remain; at the `break` it ends without further tests. -/
def packFrom (b : List Byte) (size : Nat) : List Nat → W32 × Nat → Leak (W32 × Nat)
  | [], st => pure st
  | j :: js, (out, k) => do
    branch (decide (k ≥ size))
    if k ≥ size then pure (out, k)
    else do
      let bk ← idx b k
      packFrom b size js (out ||| (bk.setWidth 32 <<< (8 * j)), k + 1)

/-- The inner loop of `decode_short` with its `break`, src/scalar.rs:142-148, on `(out, k)`. -/
def packLoop (b : List Byte) (size : Nat) (k : Nat) : Leak (W32 × Nat) := packFrom b size (List.range 4) (0, k)

/-- `decode_short`, src/scalar.rs:137-152. -/
def decode_short (b : List Byte) (size : Nat) : Leak (List W32) := do
  let s : List W32 := List.replicate 14 0
  let (s, _) ← forTo 14 (s, (0 : Nat)) fun i (s, k) => do
    let (out, k) ← packLoop b size k
    let s ← setIdx s i out
    pure (s, k)
  pure s

/-- `decode`, src/scalar.rs:155-170, including the unused accumulator. -/
def decode (b : List Byte) : Leak (List W32) := do
  let s ← decode_short b 56
  let _accum ← forTo 14 (0 : Int) fun i accum => do
    let si ← idx s i
    let qi ← idx SCALAR_Q.1 i
    let d ← chkI64 ((si.toNat : Int) - (qi.toNat : Int))
    let accum ← chkI64 (accum + d)
    pure (accum / 2 ^ 32)
  mul s SCALAR_ONE.1

/-- `encode`, src/scalar.rs:173-186. -/
def encode (s : List W32) : Leak (List Byte) := do
  let dst : List Byte := List.replicate 57 0
  let (dst, _) ← forTo 14 (dst, (0 : Nat)) fun i st =>
    forTo 4 st fun j (dst, k) => do
      let si ← idx s i
      let b := si >>> (8 * j)
      let dst ← setIdx dst k (b.setWidth 8)
      pure (dst, k + 1)
  pure dst

/-- `decode_long` from line 198 on, src/scalar.rs:198-216. The fuel of the `while` loop is more than the length of the input. -/
def decode_long_from (b : List Byte) (size : Nat) : Leak (List W32) := do
  let b_len := b.length
  let sl ← slice b size b_len
  let n ← subU b_len size
  let res ← decode_short sl n
  branch (decide (b_len = 56))
  if b_len = 56 then mul res SCALAR_ONE.1
  else do
    let (_, res) ← while' (fun st : Nat × List W32 => decide (st.1 > 0)) (fun (size, res) => do
        let size ← subU size 56
        let res ← montgomery_multiply res SCALAR_R2.1
        let sl ← slice b size b_len
        let y ← decode sl
        let res ← add res y
        pure (size, res)) (b_len + 1) (size, res)
    pure res

/-- `decode_long`, src/scalar.rs:188-217. -/
def decode_long (b : List Byte) : Leak (List W32) := do
  let b_len := b.length
  let size ← subU b_len (b_len % 56)
  branch (decide (b_len = 0))
  if b_len = 0 then pure (List.replicate 14 0)
  else do
    branch (decide (size = b_len))
    if size = b_len then do
      let size ← subU size 56
      decode_long_from b size
    else decode_long_from b size

/-! ## src/bignumber.rs -/

/-- `bias`, src/bignumber.rs:27-49. -/
def bias (n : BN) (b : W32) : Leak BN := do
  let co1 ← chkU32 (RADIX_MASK.toNat * b.toNat)
  let co2 ← subU co1 b.toNat
  let co1 : W32 := BitVec.ofNat 32 co1
  let co2 : W32 := BitVec.ofNat 32 co2
  pure ⟨n.l0 + co1, n.l1 + co1, n.l2 + co1, n.l3 + co1, n.l4 + co1, n.l5 + co1, n.l6 + co1,
    n.l7 + co1, n.l8 + co2, n.l9 + co1, n.l10 + co1, n.l11 + co1, n.l12 + co1, n.l13 + co1,
    n.l14 + co1, n.l15 + co1⟩

/-- The first `if` of `square_n`, src/bignumber.rs:107-113. -/
def squareFirst (x : BN) (y : Nat) : Leak (BN × Nat) := do
  branch (decide (y % 2 ≠ 0))
  if y % 2 ≠ 0 then do
    let y1 ← subU y 1
    pure (square x, y1)
  else do
    let y1 ← subU y 2
    pure (square (square x), y1)

/-- `square_n`, src/bignumber.rs:105-119. -/
def square_n (x : BN) (y : Nat) : Leak BN := do
  let (n, y) ← squareFirst x y
  let (n, _) ← while' (fun st : BN × Nat => decide (st.2 > 0)) (fun (n, y) => do
      let y1 ← subU y 2
      pure (square (square n), y1)) (y + 1) (n, y)
  pure n

/-- `conditional_swap`, src/bignumber.rs:349-355, on `(n, x)`. -/
def conditional_swap (n x : List W32) (swap : W32) : Leak (List W32 × List W32) :=
  forTo 16 (n, x) fun i (n, x) => do
    let xi ← idx x i
    let ni ← idx n i
    let s := (xi ^^^ ni) &&& swap
    let x ← setIdx x i (xi ^^^ s)
    let n ← setIdx n i (ni ^^^ s)
    pure (n, x)

/-- `scarry += i64::wrapping_sub(n[i] as i64, m); n[i] = scarry as u32 & RADIX_MASK; scarry >>= 28`, e.g.
src/bignumber.rs:385-387. -/
def srSub (scarry : Int) (n : W32) (m : Int) : Leak (Int × W32) := do
  let d := (BitVec.ofInt 64 (n.toNat : Int) - BitVec.ofInt 64 m).toInt
  let s ← chkI64 (scarry + d)
  pure (s / 2 ^ 28, BitVec.ofInt 32 s &&& RADIX_MASK)

/-- `carry += u64::wrapping_add(n[i] as u64, m); n[i] = carry as u32 & RADIX_MASK; carry >>= 28`, e.g.
src/bignumber.rs:453-455. -/
def srAdd (carry : Nat) (n : W32) (m : Nat) : Leak (Nat × W32) := do
  let d := (u64 n + BitVec.ofNat 64 m).toNat
  let c ← chkU64 (carry + d)
  pure (c / 2 ^ 28, BitVec.ofNat 32 c &&& RADIX_MASK)

/-- `strong_reduce`, src/bignumber.rs:381-517. -/
def strong_reduce (n : BN) : Leak BN := do
  let n := weak_reduce n
  let (scarry, n0) ← srSub 0 n.l0 0xfffffff
  let (scarry, n1) ← srSub scarry n.l1 0xfffffff
  let (scarry, n2) ← srSub scarry n.l2 0xfffffff
  let (scarry, n3) ← srSub scarry n.l3 0xfffffff
  let (scarry, n4) ← srSub scarry n.l4 0xfffffff
  let (scarry, n5) ← srSub scarry n.l5 0xfffffff
  let (scarry, n6) ← srSub scarry n.l6 0xfffffff
  let (scarry, n7) ← srSub scarry n.l7 0xfffffff
  let (scarry, n8) ← srSub scarry n.l8 0xffffffe
  let (scarry, n9) ← srSub scarry n.l9 0xfffffff
  let (scarry, n10) ← srSub scarry n.l10 0xfffffff
  let (scarry, n11) ← srSub scarry n.l11 0xfffffff
  let (scarry, n12) ← srSub scarry n.l12 0xfffffff
  let (scarry, n13) ← srSub scarry n.l13 0xfffffff
  let (scarry, n14) ← srSub scarry n.l14 0xfffffff
  let (scarry, n15) ← srSub scarry n.l15 0xfffffff
  let scarry_mask : W32 := BitVec.ofInt 32 scarry &&& RADIX_MASK
  let m : Nat := scarry_mask.toNat
  let (carry, n0) ← srAdd 0 n0 m
  let (carry, n1) ← srAdd carry n1 m
  let (carry, n2) ← srAdd carry n2 m
  let (carry, n3) ← srAdd carry n3 m
  let (carry, n4) ← srAdd carry n4 m
  let (carry, n5) ← srAdd carry n5 m
  let (carry, n6) ← srAdd carry n6 m
  let (carry, n7) ← srAdd carry n7 m
  let (carry, n8) ← srAdd carry n8 (m &&& 0xfffffffffffffffe)
  let (carry, n9) ← srAdd carry n9 m
  let (carry, n10) ← srAdd carry n10 m
  let (carry, n11) ← srAdd carry n11 m
  let (carry, n12) ← srAdd carry n12 m
  let (carry, n13) ← srAdd carry n13 m
  let (carry, n14) ← srAdd carry n14 m
  let (_, n15) ← srAdd carry n15 m
  pure ⟨n0, n1, n2, n3, n4, n5, n6, n7, n8, n9, n10, n11, n12, n13, n14, n15⟩

/-- `if fill < 8 && j < N_LIMBS { .. }` in `dsa_like_serialize`, src/bignumber.rs:649-653, on `(fill, j, buffer)`. -/
def serFill (x : List W32) (fill j : Nat) (buffer : W64) : Leak (Nat × Nat × W64) := do
  branch (decide (fill < 8 ∧ j < 16))
  if fill < 8 ∧ j < 16 then do
    let xj ← idx x j
    pure (fill + 28, j + 1, buffer ||| (u64 xj <<< fill))
  else pure (fill, j, buffer)

/-- `dsa_like_serialize`, src/bignumber.rs:641-659, after `x = strong_reduce(x)`: the state is `(res, fill, j, buffer)`. -/
def serialize (x : List W32) : Leak (List Byte) := do
  let res : List Byte := List.replicate 56 0
  let (res, _, _, _) ← forTo 56 (res, (0 : Nat), (0 : Nat), (0 : W64)) fun i (res, fill, j, buffer) => do
    let (fill, j, buffer) ← serFill x fill j buffer
    let res ← setIdx res i (buffer.setWidth 8)
    let fill ← subU fill 8
    pure (res, fill, j, buffer >>> 8)
  pure res

/-- `dsa_like_serialize`, src/bignumber.rs:641-659. -/
def dsa_like_serialize (n : BN) : Leak (List Byte) := do
  let x ← strong_reduce n
  serialize x.toList

namespace BigNumber

/-- `neg`, src/bignumber.rs:143-145. -/
def neg (x : BN) : Leak BN := do
  let n ← bias (neg_raw x) 2
  pure (weak_reduce n)

/-- `sub`, src/bignumber.rs:206-208. -/
def sub (x y : BN) : Leak BN := do
  let n ← bias (sub_raw x y) 2
  pure (weak_reduce n)

/-- `sub_x_bias`, src/bignumber.rs:210-212. -/
def sub_x_bias (x y : BN) (amt : W32) : Leak BN := do
  let n ← bias (sub_raw x y) amt
  pure (weak_reduce n)

/-- `low_bit`, src/bignumber.rs:14-19. -/
def low_bit (x : BN) : Leak W32 := do
  let y ← strong_reduce x
  pure (0 - (y.l0 &&& 1))

/-- `isr`, src/bignumber.rs:73-103, including the two assignments at the end that are not used. -/
def isr (x : BN) : Leak BN := do
  let l1 := square x
  let l2 := Ed448.mul x l1
  let l1 := square l2
  let l2 := Ed448.mul x l1
  let l1 ← square_n l2 3
  let l0 := Ed448.mul l2 l1
  let l1 ← square_n l0 3
  let l0 := Ed448.mul l2 l1
  let l2 ← square_n l0 9
  let l1 := Ed448.mul l0 l2
  let l0 := square l1
  let l2 := Ed448.mul x l0
  let l0 ← square_n l2 18
  let l2 := Ed448.mul l1 l0
  let l0 ← square_n l2 37
  let l1 := Ed448.mul l2 l0
  let l0 ← square_n l1 37
  let l1 := Ed448.mul l2 l0
  let l0 ← square_n l1 111
  let l2 := Ed448.mul l1 l0
  let l0 := square l2
  let l1 := Ed448.mul x l0
  let l0 ← square_n l1 223
  let l1 := Ed448.mul l2 l0
  let l2 := square l1
  let _l0 := Ed448.mul l2 x
  pure l1

/-- `invert`, src/bignumber.rs:64-70. -/
def invert (x : BN) : Leak BN := do
  let t1 := square x
  let t2 ← isr t1
  let t1 := square t2
  pure (Ed448.mul t1 x)

/-- `constant_time_select`, src/bignumber.rs:147-152. -/
def constant_time_select (x y : BN) (first : W32) : Leak BN := do
  let (b, _) ← conditional_swap y.toList x.toList first
  pure (BN.ofList b)

/-- `conditional_negate`, src/bignumber.rs:154-156. -/
def conditional_negate (n : BN) (negate : W32) : Leak BN := do
  let m ← neg n
  constant_time_select m n negate

end BigNumber

/-! ## src/extended_point.rs -/

/-- `double_internal`, src/extended_point.rs:102-122. -/
def double_internal (p : Pt) (before_double : Bool) : Leak Pt := do
  let c := square p.x
  let a := square p.y
  let d := add_raw c a
  let t := add_raw p.x p.y
  let b := square t
  let b ← BigNumber.sub_x_bias b d 3
  let t ← BigNumber.sub a c
  let x := square p.z
  let z := add_raw x x
  let a ← BigNumber.sub_x_bias z t 4
  let x := Ed448.mul a b
  let z := Ed448.mul t a
  let y := Ed448.mul t d
  branch (!before_double)
  let t := if !before_double then Ed448.mul b d else t
  pure ⟨x, y, z, t⟩

/-- `add_niels_to_extended`, src/extended_point.rs:132-148. -/
def add_niels_to_extended (p : Pt) (np : TwistedNiels) (before_double : Bool) : Leak Pt := do
  let b ← BigNumber.sub p.y p.x
  let a := Ed448.mul np.a b
  let b := add_raw p.x p.y
  let y := Ed448.mul np.b b
  let x := Ed448.mul np.c p.t
  let c := add_raw a y
  let b ← BigNumber.sub y a
  let y ← BigNumber.sub p.z x
  let a := add_raw x p.z
  let z := Ed448.mul a y
  let x := Ed448.mul y b
  let y := Ed448.mul a c
  branch (!before_double)
  let t := if !before_double then Ed448.mul b c else p.t
  pure ⟨x, y, z, t⟩

/-- `eddsa_like_encode`, src/extended_point.rs:188-212. -/
def eddsa_like_encode (p : Pt) : Leak (List Byte) := do
  let x := square p.x
  let t := square p.y
  let u := Ed448.add x t
  let z := Ed448.add p.y p.x
  let y := square z
  let y ← BigNumber.sub u y
  let z ← BigNumber.sub t x
  let x := square p.z
  let t := Ed448.add x x
  let t ← BigNumber.sub t z
  let x := Ed448.mul t y
  let y := Ed448.mul z u
  let z := Ed448.mul u t
  let z ← BigNumber.invert z
  let t := Ed448.mul x z
  let x := Ed448.mul y z
  let ser ← dsa_like_serialize x
  let res ← copyInto (List.replicate 57 0) 0 56 ser
  let low ← BigNumber.low_bit t
  setIdx res 56 (((0x80 : W32) &&& low).setWidth 8)

/-- `TwistedNiels::conditional_negate`, src/extended_point.rs:420-423. -/
def conditional_negate (n : TwistedNiels) (neg : W32) : Leak TwistedNiels := do
  let (a, b) ← conditional_swap n.a.toList n.b.toList neg
  let c ← BigNumber.conditional_negate n.c neg
  pure ⟨BN.ofList a, BN.ofList b, c⟩

/-- `TwistedNiels::to_extended`, src/extended_point.rs:425-433. -/
def to_extended (n : TwistedNiels) : Leak Pt := do
  let y := Ed448.add n.b n.a
  let x ← BigNumber.sub n.b n.a
  let t := Ed448.mul y x
  pure ⟨x, y, BIG_ONE, t⟩

/-- The loop over the teeth, src/extended_point.rs:582-588. -/
def combTab (s : List W32) (i j : Nat) : Leak W32 :=
  forTo 5 (0 : W32) fun k tab => do
    let bit := i + 18 * (k + j * 5)
    branch (decide (bit < 446))
    if bit < 446 then do
      let w ← idx s (bit / 32)
      let b ← shr32 w (bit % 32)
      let t ← shl32 (b &&& 1) k
      pure (tab ||| t)
    else pure tab

/-- Selection of a table entry, src/extended_point.rs:582-596. -/
def combSelect (s : List W32) (i j : Nat) : Leak TwistedNiels := do
  let tab ← combTab s i j
  let n ← subU 5 1
  let invert ← chkI32 (tab.toInt / 2 ^ n - 1)
  let tab := tab ^^^ BitVec.ofInt 32 invert
  let m ← subU (1 <<< n) 1
  let tab := tab &&& BitVec.ofNat 32 m
  let index := (j <<< n) + tab.toNat
  let np ← lookup DECAF_PRECOMP_TABLE index
  conditional_negate np (BitVec.ofInt 32 invert)

/-- `precomputed_scalar_mul`, src/extended_point.rs:570-606. -/
def precomputed_scalar_mul (s : List W32) : Leak Pt := do
  let scalar2 ← add s scalar_adjustment.1
  let scalar2 ← halve scalar2
  forRev 18 Pt.zero fun i p => do
    let l ← subU 18 1
    branch (decide (i ≠ l))
    let p ← (if i ≠ l then double_internal p false else pure p)
    forTo 5 p fun j p => do
      let np ← combSelect scalar2 i j
      let l5 ← subU 5 1
      branch (decide (i ≠ l ∨ j ≠ 0))
      if i ≠ l ∨ j ≠ 0 then add_niels_to_extended p np (j == l5 && i != 0) else to_extended np

/-! ## src/eddsa.rs -/

/-- `clamp`, src/eddsa.rs:13-17. -/
def clamp (pk : List Byte) : Leak (List Byte) := do
  let b ← idx pk 0
  let pk ← setIdx pk 0 (b &&& 0xfc)
  let pk ← setIdx pk 56 0
  let b ← idx pk 55
  setIdx pk 55 (b ||| 0x80)

/-! ## src/goldilocks.rs -/

/-- `point_by_secret`, src/goldilocks.rs:31-39. -/
def point_by_secret (p : List Byte) : Leak Pt := do
  let digest ← clamp p
  let r ← decode_long digest
  let r ← halve r
  let r ← halve r
  precomputed_scalar_mul r

/-- `private_to_secret`, src/goldilocks.rs:41-46. -/
def private_to_secret (xof : Xof) (pk : List Byte) : Leak (List Byte) := do
  let sk ← sha3 xof pk 57
  let b ← idx sk 56
  setIdx sk 56 (b ||| 0x80)

/-- `secret_to_public`, src/goldilocks.rs:48-53. -/
def secret_to_public (sk : List Byte) : Leak (List Byte) := do
  let h ← point_by_secret sk
  eddsa_like_encode h

/-- `private_to_public`, src/goldilocks.rs:55-57. -/
def private_to_public (xof : Xof) (pk : List Byte) : Leak (List Byte) := do
  let sk ← private_to_secret xof pk
  secret_to_public sk

/-- The common part of the two signing functions, src/goldilocks.rs:69-95 and 107-133: from the public point, the scalar and the seed to the
signature. -/
def signTail (xof : Xof) (point : Pt) (sec : List W32) (seed message : List Byte) : Leak (List Byte) := do
  let nonce ← hash_with_dom xof (seed ++ message) 114
  let nonce_scalar ← decode_long nonce
  let nonce_scalar2 ← halve nonce_scalar
  let nonce_scalar2 ← halve nonce_scalar2
  let np ← precomputed_scalar_mul nonce_scalar2
  let nonce_point ← eddsa_like_encode np
  let enc ← eddsa_like_encode point
  let challenge ← hash_with_dom xof (nonce_point ++ enc ++ message) 114
  let challenge_scalar ← decode_long challenge
  let challenge_scalar ← mul challenge_scalar sec
  let challenge_scalar ← add challenge_scalar nonce_scalar
  let result ← copyInto (List.replicate 114 0) 0 57 nonce_point
  let e ← encode challenge_scalar
  copyInto result 57 114 e

/-- `sign_by_private`, src/goldilocks.rs:59-95. -/
def sign_by_private (xof : Xof) (pk message : List Byte) : Leak (List Byte) := do
  let secret ← sha3 xof pk 114
  let secret ← clamp secret
  let s ← slice secret 0 57
  let sk ← copyInto (List.replicate 57 0) 0 57 s
  let sec ← decode_long sk
  let s ← slice secret 57 114
  let seed ← copyInto (List.replicate 57 0) 0 57 s
  let point ← point_by_secret sk
  signTail xof point sec seed message

/-- `sign_with_secret_and_nonce`, src/goldilocks.rs:97-133. -/
def sign_with_secret_and_nonce (xof : Xof) (secret n message : List Byte) : Leak (List Byte) := do
  let s1 ← clamp secret
  let sec ← decode_long s1
  let pub_point ← point_by_secret secret
  signTail xof pub_point sec n message

/-- `ed448_derive_public`, src/goldilocks.rs:135-141. -/
def ed448_derive_public (xof : Xof) (pk : List Byte) : Leak (List Byte) := do
  let n ← subU 57 1
  let b ← idx pk n
  branch (decide (b &&& 0x80 = 0))
  if b &&& 0x80 = 0 then private_to_public xof pk else secret_to_public pk

/-- `ed448_sign`, src/goldilocks.rs:143-152. -/
def ed448_sign (xof : Xof) (pk message : List Byte) : Leak (List Byte) := do
  let n ← subU 57 1
  let b ← idx pk n
  branch (decide (b &&& 0x80 = 0))
  if b &&& 0x80 = 0 then sign_by_private xof pk message
  else do
    let digest ← clamp pk
    sign_with_secret_and_nonce xof digest digest message

end Leak

end Ed448
