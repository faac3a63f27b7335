import Verif.Model.Rust

/-!
# Scalars modulo the group order: src/scalar.rs

The `for i in 0..SCALAR_WORDS` loops become recursions over the lists of words, least significant word first.
-/

namespace Ed448

/-- `SCALAR_Q`, src/constants32.rs:54-57 and src/scalar.rs:6. -/
def SCALAR_Q : Scalar :=
  ⟨[0xab5844f3, 0x2378c292, 0x8dc58f55, 0x216cc272, 0xaed63690, 0xc44edb49, 0x7cca23e9,
    0xffffffff, 0xffffffff, 0xffffffff, 0xffffffff, 0xffffffff, 0xffffffff, 0x3fffffff], rfl⟩

/-- `SCALAR_R2`, src/constants32.rs:58-61. -/
def SCALAR_R2 : Scalar :=
  ⟨[0x049b9b60, 0xe3539257, 0xc1b195d9, 0x7af32c4b, 0x88ea1859, 0x0d66de23, 0x5ee4d838,
    0xae17cf72, 0xa3c47c44, 0x1a9cc14b, 0xe4d070af, 0x2052bcb7, 0xf823b729, 0x3402a939], rfl⟩

/-- `MONTGOMERY_FACTOR`, src/constants32.rs:49. -/
abbrev MONTGOMERY_FACTOR : W32 := 0xae918bc5

/-- `create_zero_scalar`, src/scalar.rs:10-13. -/
def SCALAR_ZERO : Scalar := ⟨[0, 0, 0, 0, 0, 0, 0, 0, 0, 0, 0, 0, 0, 0], rfl⟩

/-- The scalar one, src/scalar.rs:164-168 and src/extended_point.rs:561. -/
def SCALAR_ONE : Scalar := ⟨[1, 0, 0, 0, 0, 0, 0, 0, 0, 0, 0, 0, 0, 0], rfl⟩

/-- The scalar four, src/eddsa.rs:56. -/
def SCALAR_FOUR : Scalar := ⟨[4, 0, 0, 0, 0, 0, 0, 0, 0, 0, 0, 0, 0, 0], rfl⟩

/-- First loop of `sub_extra`, src/scalar.rs:32-36. The `i64` accumulator `chain` is an integer (it stays between
-2^33 and 2^33), `>>` is floor division, `as Word` reduction modulo 2^32. -/
def subChain : List W32 → List W32 → Int → List W32 × Int
  | m :: ms, s :: ss, chain =>
    let chain := chain + ((m.toNat : Int) - (s.toNat : Int))
    let r := subChain ms ss (chain / 2 ^ 32)
    (BitVec.ofInt 32 chain :: r.1, r.2)
  | _, _, chain => ([], chain)

/-- Second loop of `sub_extra`, src/scalar.rs:41-45: adds `SCALAR_Q[i] & borrow`. -/
def addMaskChain (borrow : Int) : List W32 → List W32 → Int → List W32
  | r :: rs, q :: qs, chain =>
    let chain := chain + ((r.toNat : Int) + ((u64 q &&& BitVec.ofInt 64 borrow).toNat : Int))
    BitVec.ofInt 32 chain :: addMaskChain borrow rs qs (chain / 2 ^ 32)
  | _, _, _ => []

theorem subChain_length : ∀ (a b : List W32) (c : Int),
    (subChain a b c).1.length = min a.length b.length
  | [], [], _ => rfl
  | [], _ :: _, _ => by simp [subChain]
  | _ :: _, [], _ => by simp [subChain]
  | _ :: ms, _ :: ss, c => by simp [subChain, subChain_length ms ss]

theorem addMaskChain_length (borrow : Int) : ∀ (a b : List W32) (c : Int),
    (addMaskChain borrow a b c).length = min a.length b.length
  | [], [], _ => rfl
  | [], _ :: _, _ => by simp [addMaskChain]
  | _ :: _, [], _ => by simp [addMaskChain]
  | _ :: ms, _ :: ss, c => by simp [addMaskChain, addMaskChain_length borrow ms ss]

/-- `sub_extra`, src/scalar.rs:29-47. -/
def sub_extra (minuend subtrahend : Scalar) (carry : W32) : Scalar :=
  let r := subChain minuend.1 subtrahend.1 0
  let borrow := r.2 + (carry.toNat : Int)
  ⟨addMaskChain borrow r.1 SCALAR_Q.1 0, by
    simp [addMaskChain_length, r, subChain_length, minuend.2, subtrahend.2, SCALAR_Q.2]⟩

/-- The loop of `add`, src/scalar.rs:52-56. The `u64` accumulator is a natural number (it stays below 2^34). -/
def addChain : List W32 → List W32 → Nat → List W32 × Nat
  | a :: as, b :: bs, chain =>
    let chain := chain + (a.toNat + b.toNat)
    let r := addChain as bs (chain / 2 ^ 32)
    (BitVec.ofNat 32 chain :: r.1, r.2)
  | _, _, chain => ([], chain)

theorem addChain_length : ∀ (a b : List W32) (c : Nat),
    (addChain a b c).1.length = min a.length b.length
  | [], [], _ => rfl
  | [], _ :: _, _ => by simp [addChain]
  | _ :: _, [], _ => by simp [addChain]
  | _ :: ms, _ :: ss, c => by simp [addChain, addChain_length ms ss]

/-- `add`, src/scalar.rs:49-59. -/
def scalarAdd (a b : Scalar) : Scalar :=
  let r := addChain a.1 b.1 0
  sub_extra ⟨r.1, by simp [r, addChain_length, a.2, b.2]⟩ SCALAR_Q (BitVec.ofNat 32 r.2)

/-- `sub`, src/scalar.rs:61-64. -/
def scalarSub (a b : Scalar) : Scalar := sub_extra a b 0

/-- The loop adding `SCALAR_Q[i] & mask` in `halve`, src/scalar.rs:70-77, in wrapping `u64` arithmetic. -/
def halveChain (mask : W32) : List W32 → List W32 → W64 → List W32 × W64
  | s :: ss, q :: qs, chain =>
    let chain := chain + (u64 s + u64 (q &&& mask))
    let r := halveChain mask ss qs (chain >>> 32)
    (lo32 chain :: r.1, r.2)
  | _, _, chain => ([], chain)

/-- The shifting loop of `halve`, src/scalar.rs:78-82: every word takes its top bit from the next one, the last from
`chain`. -/
def shrChain : List W32 → W64 → List W32
  | [], _ => []
  | [s], chain => [(s >>> 1) ||| lo32 (chain <<< 31)]
  | s :: s' :: ss, chain => ((s >>> 1) ||| (s' <<< 31)) :: shrChain (s' :: ss) chain

theorem halveChain_length (mask : W32) : ∀ (a b : List W32) (c : W64),
    (halveChain mask a b c).1.length = min a.length b.length
  | [], [], _ => rfl
  | [], _ :: _, _ => by simp [halveChain]
  | _ :: _, [], _ => by simp [halveChain]
  | _ :: ms, _ :: ss, c => by simp [halveChain, halveChain_length mask ms ss]

theorem shrChain_length : ∀ (a : List W32) (c : W64), (shrChain a c).length = a.length
  | [], _ => rfl
  | [_], _ => rfl
  | _ :: s' :: ss, c => by simp [shrChain, shrChain_length (s' :: ss)]

/-- First word of a scalar. -/
def Scalar.head (s : Scalar) : W32 := s.1[0]'(by simp [s.2])

/-- `halve`, src/scalar.rs:66-85. -/
def halve (s : Scalar) : Scalar :=
  let mask : W32 := 0 - (s.head &&& 1)
  let r := halveChain mask s.1 SCALAR_Q.1 0
  ⟨shrChain r.1 r.2, by simp [shrChain_length, r, halveChain_length, s.2, SCALAR_Q.2]⟩

/-- The row operation `chain = m * y[j] + out[j] + chain; out[j] = chain as Word; chain >>= 32` in wrapping `u64`
arithmetic: the two inner loops of `montgomery_multiply`, src/scalar.rs:93-103 and 109-121 (the second one with
`y = SCALAR_Q`; there the words are stored one place lower and the first is dropped, see `mmStep`). -/
def macRow (m : W32) : List W32 → List W32 → W64 → List W32 × W64
  | y :: ys, o :: os, chain =>
    let chain := u64 m * u64 y + u64 o + chain
    let r := macRow m ys os (chain >>> 32)
    (lo32 chain :: r.1, r.2)
  | _, _, chain => ([], chain)

theorem macRow_length (m : W32) : ∀ (a b : List W32) (c : W64),
    (macRow m a b c).1.length = min a.length b.length
  | [], [], _ => rfl
  | [], _ :: _, _ => by simp [macRow]
  | _ :: _, [], _ => by simp [macRow]
  | _ :: ms, _ :: ss, c => by simp [macRow, macRow_length m ms ss]

/-- One iteration of the outer loop of `montgomery_multiply`, src/scalar.rs:91-125. The state is
`(out, carry)`. -/
def mmStep (y : Scalar) (st : Scalar × W32) (xi : W32) : Scalar × W32 :=
  let r := macRow xi y.1 st.1.1 0
  let saved := lo32 r.2
  let out0 := r.1[0]'(by simp [r, macRow_length, y.2, st.1.2])
  let multiplicand := out0 * MONTGOMERY_FACTOR
  let r' := macRow multiplicand SCALAR_Q.1 r.1 0
  let chain := (u64 saved + u64 st.2) + r'.2
  (⟨r'.1.tail ++ [lo32 chain], by
    simp [r', r, macRow_length, y.2, st.1.2, SCALAR_Q.2]⟩, lo32 (chain >>> 32))

/-- `montgomery_multiply`, src/scalar.rs:88-129. -/
def montgomery_multiply (x y : Scalar) : Scalar :=
  let r := x.1.foldl (mmStep y) (SCALAR_ZERO, 0)
  sub_extra r.1 SCALAR_Q r.2

/-- `mul`, src/scalar.rs:131-134. -/
def scalarMul (x y : Scalar) : Scalar :=
  let s := montgomery_multiply x y
  montgomery_multiply s SCALAR_R2

/-- The inner loop of `decode_short`, src/scalar.rs:142-148: at most four bytes are packed into a word; `rest` is what
remains of `b[k..size]`. -/
def packWord : Nat → Nat → W32 → List Byte → W32 × List Byte
  | 0, _, out, rest => (out, rest)
  | _ + 1, _, out, [] => (out, [])
  | n + 1, j, out, b :: rest => packWord n (j + 1) (out ||| (b.setWidth 32 <<< (8 * j))) rest

/-- The outer loop of `decode_short`, src/scalar.rs:140-150. -/
def packWords : Nat → List Byte → List W32
  | 0, _ => []
  | n + 1, rest =>
    let r := packWord 4 0 0 rest
    r.1 :: packWords n r.2

theorem packWords_length : ∀ n l, (packWords n l).length = n
  | 0, _ => rfl
  | n + 1, l => by simp [packWords, packWords_length n]

/-- `decode_short`, src/scalar.rs:137-152. All calls have `size ≤ b.len()`, so `b[k]` is in range. -/
def decode_short (b : List Byte) (size : Nat) : Scalar :=
  ⟨packWords 14 (b.take size), packWords_length _ _⟩

/-- `decode`, src/scalar.rs:155-170. The unused variable `accum` is omitted. -/
def scalarDecode (b : List Byte) : Scalar :=
  scalarMul (decode_short b 56) SCALAR_ONE

/-- The inner loop of `encode`, src/scalar.rs:178-182. -/
def wordBytes (s : W32) : List Byte :=
  [s.setWidth 8, (s >>> 8).setWidth 8, (s >>> 16).setWidth 8, (s >>> 24).setWidth 8]

theorem flatMap_wordBytes_length : ∀ l : List W32, (l.flatMap wordBytes).length = 4 * l.length
  | [] => rfl
  | _ :: l => by simp [List.flatMap_cons, flatMap_wordBytes_length l, wordBytes]; omega

/-- `encode`, src/scalar.rs:173-186: 56 bytes and a zero byte. -/
def scalarEncode (s : Scalar) : Arr Byte 57 :=
  ⟨s.1.flatMap wordBytes ++ [0], by
    rw [List.length_append, flatMap_wordBytes_length, s.2]; rfl⟩

/-- The `while size > 0` loop of `decode_long`, src/scalar.rs:209-214, with `size = 56 * k`. -/
def decodeLongLoop (b : List Byte) : Nat → Scalar → Scalar
  | 0, res => res
  | k + 1, res =>
    let res := montgomery_multiply res SCALAR_R2
    let y := scalarDecode (b.drop (56 * k))
    decodeLongLoop b k (scalarAdd res y)

/-- `decode_long`, src/scalar.rs:188-217. -/
def decode_long (b : List Byte) : Scalar :=
  let b_len := b.length
  if b_len = 0 then SCALAR_ZERO
  else
    let size := b_len - b_len % 56
    let size := if size = b_len then size - 56 else size
    let res := decode_short (b.drop size) (b_len - size)
    if b_len = 56 then scalarMul res SCALAR_ONE
    else decodeLongLoop b (size / 56) res

end Ed448
