/-!
# Rust values used by the model

Words are bit vectors, wrapping operations are the bit vector operations, panics are
`Except.error`.
-/

namespace Ed448

/-- `u8`. -/
abbrev Byte := BitVec 8
/-- `Word = u32`, src/constants32.rs:2. -/
abbrev W32 := BitVec 32
/-- `Dword = u64`, src/constants32.rs:4. -/
abbrev W64 := BitVec 64

/-- Reasons for a Rust panic. -/
inductive Panic where
  /-- arithmetic overflow in a build with overflow checks -/
  | overflow
  /-- array or slice index out of range, or slice length mismatch -/
  | bounds
  /-- `expect` / `unwrap` on an error -/
  | expect
  /-- explicit `panic!` -/
  | explicit
  /-- not a panic: a `while` loop that does not stop within the fuel given to the model -/
  | diverge
  deriving DecidableEq, Repr

/-- The result of running Rust code: a value, or a panic. -/
abbrev Rust (α : Type) := Except Panic α

/-- `[T; n]`. -/
abbrev Arr (α : Type) (n : Nat) := { l : List α // l.length = n }

/-- Widening `u32 as u64`. -/
abbrev u64 (x : W32) : W64 := x.setWidth 64
/-- Truncating `u64 as u32`. -/
abbrev lo32 (x : W64) : W32 := x.setWidth 32

/-- Checked `u32` addition (`+` on `u32`). -/
def addU32 (a b : W32) : Rust W32 :=
  if a.toNat + b.toNat < 2 ^ 32 then .ok (a + b) else .error .overflow

/-- Checked `u64` addition (`+` on `u64`). -/
def addU64 (a b : W64) : Rust W64 :=
  if a.toNat + b.toNat < 2 ^ 64 then .ok (a + b) else .error .overflow

/-- Range check of an `i64` result (`-` and `+` on `i64`). -/
def chkI64 (x : Int) : Rust Int :=
  if -2 ^ 63 ≤ x ∧ x < 2 ^ 63 then .ok x else .error .overflow

/-- Indexing `a[i]` of an array or `Vec`. -/
def idx {α : Type} (l : List α) (i : Nat) : Rust α :=
  match l[i]? with
  | some x => .ok x
  | none => .error .bounds

/-- Assignment `a[i] = x` in an array or `Vec`. -/
def setIdx {α : Type} (l : List α) (i : Nat) (x : α) : Rust (List α) :=
  if i < l.length then .ok (l.set i x) else .error .bounds

/-- `usize` decrement. -/
def decUsize (i : Nat) : Rust Nat :=
  if i = 0 then .error .overflow else .ok (i - 1)

/-- `BigNumber = [u32; 16]`, src/constants32.rs:22: a field element in sixteen 28-bit limbs.
Modelled as a record so that every constant index is a projection. -/
structure BN where
  (l0 l1 l2 l3 l4 l5 l6 l7 l8 l9 l10 l11 l12 l13 l14 l15 : W32)
  deriving DecidableEq, Repr

/-- The limbs in order, for the places where the code runs a loop over them. -/
def BN.toList (n : BN) : List W32 :=
  [n.l0, n.l1, n.l2, n.l3, n.l4, n.l5, n.l6, n.l7, n.l8, n.l9, n.l10, n.l11, n.l12, n.l13, n.l14,
    n.l15]

/-- Limb-wise function, for code that repeats one line for each of the 16 limbs. -/
def BN.map (f : W32 → W32) (x : BN) : BN :=
  ⟨f x.l0, f x.l1, f x.l2, f x.l3, f x.l4, f x.l5, f x.l6, f x.l7, f x.l8, f x.l9, f x.l10,
    f x.l11, f x.l12, f x.l13, f x.l14, f x.l15⟩

/-- Limb-wise binary function, for code that repeats one line for each of the 16 limbs. -/
def BN.map2 (f : W32 → W32 → W32) (x y : BN) : BN :=
  ⟨f x.l0 y.l0, f x.l1 y.l1, f x.l2 y.l2, f x.l3 y.l3, f x.l4 y.l4, f x.l5 y.l5, f x.l6 y.l6,
    f x.l7 y.l7, f x.l8 y.l8, f x.l9 y.l9, f x.l10 y.l10, f x.l11 y.l11, f x.l12 y.l12,
    f x.l13 y.l13, f x.l14 y.l14, f x.l15 y.l15⟩

/-- `[u64; 8]`: the sums of limb pairs `aa`, `bb` of the Karatsuba routines. -/
structure Oct where
  (o0 o1 o2 o3 o4 o5 o6 o7 : W64)

/-- `Scalar = [u32; 14]`, src/scalar.rs:8. -/
abbrev Scalar := Arr W32 14

/-- `LibgoldilockErrors`, src/errors.rs:4-28. -/
inductive Err where
  | DecodeError
  | DecodePubkeyError
  | DecodeSignatureError
  | InvalidLengthError
  | InvalidPrivKeyLengthErrro (len : Nat)
  | InvalidPubkeyLengthError
  | InvalidSignatureLengthError
  | InvalidSignatureError
  deriving DecidableEq, Repr

end Ed448
