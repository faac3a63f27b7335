import Verif.Model.Eddsa
import Verif.Spec.Decode

/-!
# Verification on field elements

The computations of src/extended_point.rs and `dsa_verify` with the 32-bit limbs replaced by elements of the field. The definitions work for every type
with the operations of `Num`: for the field itself, and for natural numbers reduced modulo p, with which the kernel can run them. Recoding of
scalars, bytes and hashing are those of the model.
-/

namespace Ed448.Alg

open Ed448

/-- A type of numbers to compute with. -/
class Num (K : Type) extends Add K, Sub K, Mul K where
  nat : ℕ → K
  /-- the canonical representative -/
  val : K → ℕ
  /-- application to an evaluated argument -/
  strict : {α : Type} → K → (K → α) → α

open Num

variable {K : Type} [Num K]

/-- Extended coordinates. -/
structure P4 (K : Type) where
  (x y z t : K)

/-- Niels coordinates. -/
structure N3 (K : Type) where
  (a b c : K)

/-- Projective Niels coordinates. -/
structure N4 (K : Type) where
  n : N3 K
  z : K

/-- Evaluate the coordinates, then continue. -/
def P4.force {α : Type} (p : P4 K) (k : P4 K → α) : α :=
  strict p.x fun x => strict p.y fun y => strict p.z fun z => strict p.t fun t => k ⟨x, y, z, t⟩

/-- Evaluate the coordinates, then continue. -/
def N4.force {α : Type} (p : N4 K) (k : N4 K → α) : α :=
  strict p.n.a fun a => strict p.n.b fun b => strict p.n.c fun c => strict p.z fun z => k ⟨⟨a, b, c⟩, z⟩

/-- The neutral element, src/extended_point.rs:95-100. -/
def P4.identity : P4 K := ⟨nat 0, nat 1, nat 1, nat 0⟩

/-- Doubling, src/extended_point.rs:102-122. -/
def P4.double (p : P4 K) (before_double : Bool) : P4 K :=
  let c := p.x * p.x
  let a := p.y * p.y
  let d := c + a
  let s := p.x + p.y
  let b := s * s - d
  let t := a - c
  let w := p.z * p.z
  let a := w + w - t
  ⟨a * b, t * d, t * a, if before_double then t else b * d⟩

/-- Addition of a point in Niels form, src/extended_point.rs:132-148. -/
def P4.addN (p : P4 K) (n : N3 K) (before_double : Bool) : P4 K :=
  let a := n.a * (p.y - p.x)
  let y := n.b * (p.x + p.y)
  let x := n.c * p.t
  let c := a + y
  let b := y - a
  let y := p.z - x
  let a := x + p.z
  ⟨y * b, a * c, a * y, if before_double then p.t else b * c⟩

/-- Subtraction of a point in Niels form, src/extended_point.rs:150-166. -/
def P4.subN (p : P4 K) (n : N3 K) (before_double : Bool) : P4 K :=
  let a := n.b * (p.y - p.x)
  let y := n.a * (p.x + p.y)
  let x := n.c * p.t
  let c := a + y
  let b := y - a
  let y := p.z + x
  let a := p.z - x
  ⟨y * b, a * c, a * y, if before_double then p.t else b * c⟩

/-- src/extended_point.rs:168-176. -/
def P4.addP (p : P4 K) (n : N4 K) (before_double : Bool) : P4 K := P4.addN { p with z := p.z * n.z } n.n before_double

/-- src/extended_point.rs:178-186. -/
def P4.subP (p : P4 K) (n : N4 K) (before_double : Bool) : P4 K := P4.subN { p with z := p.z * n.z } n.n before_double

/-- src/extended_point.rs:232-242. The constant is `2 * EDWARDS_D - 2 = -78164`. -/
def P4.toN4 (p : P4 K) : N4 K := ⟨⟨p.y - p.x, p.x + p.y, nat 0 - nat 78164 * p.t⟩, p.z + p.z⟩

/-- src/extended_point.rs:65-76. -/
def N4.toP4 (n : N4 K) : P4 K :=
  let u := n.n.b + n.n.a
  let v := n.n.b - n.n.a
  ⟨n.z * v, n.z * u, n.z * n.z, v * u⟩

/-- src/extended_point.rs:425-433. -/
def N3.toP4 (n : N3 K) : P4 K :=
  let y := n.b + n.a
  let x := n.b - n.a
  ⟨x, y, nat 1, y * x⟩

/-- src/extended_point.rs:420-423. -/
def N3.negate (n : N3 K) : N3 K := ⟨n.b, n.a, nat 0 - n.c⟩

/-- A table entry of the code. -/
def ofTable (n : TwistedNiels) : N3 K :=
  let v (b : BN) : ℕ := b.toList.foldr (fun w acc => w.toNat + 2 ^ 28 * acc) 0
  ⟨nat (v n.a), nat (v n.b), nat (v n.c)⟩

/-- src/extended_point.rs:253-256 and 505-508. -/
def windowLoop (pn : N4 K) : ℕ → P4 K → List (N4 K)
  | 0, _ => []
  | k + 1, p => (p.addP pn false).force fun p => p.toN4.force fun e => e :: windowLoop pn k p

/-- src/extended_point.rs:244-259. -/
def P4.window (p : P4 K) : List (N4 K) :=
  (p.double false).toN4.force fun pn => p.toN4.force fun e => e :: windowLoop pn 15 p

/-- src/extended_point.rs:278-288. -/
def select (l : List (N4 K)) (s : List W32) (i : ℕ) : Rust (N4 K) := do
  let (bits, inv) ← windowBits s i
  let e ← idx l (bits.toNat &&& 15)
  pure (if inv = 0 then e else { e with n := e.n.negate })

/-- src/extended_point.rs:294-296. -/
def P4.doubleTimes : ℕ → P4 K → P4 K
  | 0, p => p
  | k + 1, p => (P4.doubleTimes k p).double true

/-- src/extended_point.rs:276-304. -/
def mulLoop (l : List (N4 K)) (s : List W32) : ℕ → P4 K → Rust (P4 K)
  | 0, p => pure p
  | k + 1, p => p.force fun p => do
    let e ← select l s (5 * k)
    mulLoop l s k (((P4.doubleTimes 4 p).double false).addP e false)

/-- src/extended_point.rs:261-305. -/
def P4.mul (p : P4 K) (s : Scalar) : Rust (P4 K) := do
  let s := halve (scalarAdd s scalar_adjustment)
  let l := p.window
  let e ← select l s.1 445
  mulLoop l s.1 89 e.toP4

/-- src/extended_point.rs:487-509. -/
def P4.wnafTable (p : P4 K) : List (N4 K) :=
  let d0 := p.toN4
  let p := p.double false
  let tw := p.toN4
  (p.addP d0 false).force fun p => d0.force fun d0 => p.toN4.force fun d1 => tw.force fun tw => d0 :: d1 :: windowLoop tw 6 p

/-- src/extended_point.rs:374-383. -/
def addVar (l : List (N4 K)) (i : Int) (ev : SmvtControl) (cp : Bool) (p : P4 K) : Rust (P4 K) :=
  if ev.addend > 0 then do
    let e ← idx l (asUsize ev.addend >>> 1)
    pure (p.addP e (i != 0 && !cp))
  else do
    let e ← idx l (asUsize (-ev.addend) >>> 1)
    pure (p.subP e (i != 0 && !cp))

/-- src/extended_point.rs:385-394. -/
def addPre (i : Int) (ep : SmvtControl) (p : P4 K) : Rust (P4 K) :=
  if ep.addend > 0 then do
    let e ← idx DECAF_WNAF_TABLE (asUsize ep.addend >>> 1)
    pure (p.addN (ofTable e) (i != 0))
  else do
    let e ← idx DECAF_WNAF_TABLE (asUsize (-ep.addend) >>> 1)
    pure (p.subN (ofTable e) (i != 0))

/-- src/extended_point.rs:368-397. -/
def doubleLoop (cv cp : List SmvtControl) (l : List (N4 K)) : ℕ → ℕ → ℕ → P4 K → Rust (P4 K)
  | 0, _, _, p => pure p
  | k + 1, a, b, p => p.force fun p => do
    let i : Int := k
    let ev ← idx cv a
    let ep ← idx cp b
    let v : Bool := i == ev.power
    let f : Bool := i == ep.power
    let p := p.double (i != 0 && !(v || f))
    let p ← cond v (addVar l i ev f p) (pure p)
    let p ← cond f (addPre i ep p) (pure p)
    doubleLoop cv cp l k (cond v (a + 1) a) (cond f (b + 1) b) p

/-- src/extended_point.rs:340-361. -/
def firstDigits (v0 p0 : SmvtControl) (l : List (N4 K)) : Rust (P4 K × Int × ℕ × ℕ) :=
  let index := asUsize (v0.addend / 2)
  let i := v0.power
  if i > p0.power then do
    let e ← idx l index
    pure (e.toP4, i, 1, 0)
  else if i = p0.power ∧ i ≥ 0 then do
    let e ← idx l index
    let f ← idx DECAF_WNAF_TABLE (asUsize p0.addend >>> 1)
    pure (e.toP4.addN (ofTable f) (i != 0), i, 1, 1)
  else do
    let f ← idx DECAF_WNAF_TABLE (asUsize p0.addend >>> 1)
    pure ((ofTable f : N3 K).toP4, p0.power, 0, 1)

/-- src/extended_point.rs:307-402: `sp B + sv p`. -/
def P4.doubleMul (p : P4 K) (sp sv : Scalar) : Rust (P4 K) := do
  let cp ← recode_wnaf (List.replicate 77 ⟨0, 0⟩) sp 5
  let cv ← recode_wnaf (List.replicate 115 ⟨0, 0⟩) sv 3
  let l := p.wnafTable
  let v0 ← idx cv 0
  let p0 ← idx cp 0
  let r ← firstDigits v0 p0 l
  if r.2.1 < 0 then pure P4.identity
  else doubleLoop cv cp l r.2.1.toNat r.2.2.1 r.2.2.2 r.1

/-- Powers by repeated squaring; the first argument bounds the number of bits of the exponent. -/
def pow (a : K) : ℕ → ℕ → K
  | 0, _ => nat 1
  | k + 1, n => strict (pow a k (n / 2)) fun r => if n % 2 = 0 then r * r else r * r * a

/-- Equality as the code sees it: the low 420 bits of the difference are zero. -/
def lowZero (a : K) : Bool := Nat.beq (val a % 2 ^ 420) 0

/-- The x coordinate, up to sign, src/extended_point.rs:531-537. -/
def root (y : K) : K :=
  let z := nat 1 - y * y
  z * pow (z * (nat 1 + nat 39081 * (y * y))) 448 (2 ^ 446 - 2 ^ 222 - 1)

/-- The x coordinate with the sign chosen by the sign bit, negated, src/extended_point.rs:531-538. -/
def decodeX (y : K) (sign : ℕ) : K :=
  strict (root y) fun x => if val x % 2 = sign then nat 0 - x else x

/-- The isogeny, src/extended_point.rs:539-554. -/
def isogeny (x y : K) : P4 K :=
  let c := x * x
  let a := y * y
  let d := c + a
  let s := y + x
  let b := s * s - d
  let t := a - c
  let a := nat 1 + nat 1 - d
  ⟨a * b, t * d, t * a, b * d⟩

/-- src/extended_point.rs:214-230. -/
def P4.onCurve (p : P4 K) : Bool :=
  lowZero (p.x * p.y - p.z * p.t) && lowZero (p.y * p.y - p.x * p.x - (p.z * p.z - nat 39082 * (p.t * p.t))) && !lowZero p.z

/-- src/extended_point.rs:513-568. -/
def decode (b : List Byte) : Rust (Except Err (P4 K)) :=
  if b.length = 57 then
    strict (nat (yNat b)) fun y => strict (decodeX y (signBit b)) fun x => (isogeny x y).force fun p =>
      if (p.onCurve && (padBits b == 0 && decide (PassesCheck (yNat b)))) = true then do
        let p ← p.mul (halve (halve SCALAR_ONE))
        pure (.ok p)
      else pure (.error .DecodeError)
  else pure (.error .InvalidLengthError)

/-- src/extended_point.rs:188-212. -/
def P4.encode (p : P4 K) : List Byte :=
  let x := p.x * p.x
  let t := p.y * p.y
  let u := x + t
  let s := p.y + p.x
  let y := u - s * s
  let z := t - x
  let w := p.z * p.z
  let t := w + w - z
  strict (pow (u * t) 448 (2 ^ 448 - 2 ^ 224 - 3)) fun i =>
    leBytes 56 (val (z * u * i)) ++ [BitVec.ofNat 8 (128 * (val (t * y * i) % 2))]

/-- src/extended_point.rs:124-130. -/
def P4.same (p p' : P4 K) : Bool := lowZero (p.y * p'.x - p.x * p'.y)

/-- src/eddsa.rs:86-102. -/
def compare (xof : Xof) (p p2 r : P4 K) (sig1 sig2 m : List Byte) : Rust Bool := do
  let r ← r.mul SCALAR_FOUR
  let c := decode_long (hash_with_dom xof (sig1 ++ p.encode ++ m) 114).1
  let v ← p2.doubleMul (decode_long sig2) (scalarSub SCALAR_ZERO c)
  pure (r.same v)

variable (K) in
/-- `dsa_verify`, src/eddsa.rs:39-102. -/
def verify (xof : Xof) (pk sig m : List Byte) : Rust (Except Err Bool) := do
  match ← decode (K := K) pk with
  | .error .InvalidLengthError => pure (.error .InvalidPubkeyLengthError)
  | .error .DecodeError => pure (.error .DecodePubkeyError)
  | .error _ => .error .explicit
  | .ok p =>
    let p2 ← p.mul SCALAR_FOUR
    if sig.length < 114 then .error .bounds
    else
      match ← decode (K := K) (sig.take 57) with
      | .error .InvalidLengthError => pure (.error .InvalidSignatureLengthError)
      | .error .DecodeError => pure (.error .DecodeSignatureError)
      | .error _ => .error .explicit
      | .ok r => do
        let b ← compare xof p p2 r (sig.take 57) ((sig.drop 57).take 57) m
        pure (.ok b)

end Ed448.Alg
