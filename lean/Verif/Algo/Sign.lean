import Verif.Algo.Hom
import Verif.Spec.Shake
import Verif.Spec.Rfc8032
import Verif.Properties.Keys

/-!
# Keys and signatures, evaluated

The public key and the signature of RFC 8032 as numbers modulo p and q, in a form the kernel can evaluate.
-/

set_option exponentiation.threshold 1000

namespace Ed448.Alg

open Ed448 Ed448.Shake

/-- `q` as a literal. -/
def qN : ℕ := 181709681073901722637330951972001133588410340171829515070372549795146003961539585716195755291692375963310293709091662304773755859649779

theorem qN_eq : qN = q := by rw [q_def]; decide +kernel

/-- The inverse modulo p. -/
def invN (a : ℕ) : ℕ := pow (K := Zp) a 448 (2 ^ 448 - 2 ^ 224 - 3)

theorem cast_invN (a : ℕ) : (invN a : F) = (a : F)⁻¹ := by
  have hp : 2 ^ 448 - 2 ^ 224 - 3 = p - 2 := by rw [p_def]; decide +kernel
  have hb : p - 2 < 2 ^ 448 := by rw [p_def]; decide +kernel
  rw [inv_eq_pow, ← hp]
  exact pow_c homZ a 448 _ (by rw [hp]; exact hb)

/-- The encoding of the point with projective coordinates `P`. -/
def encodeP (P : PP) : List (BitVec 8) :=
  forced (invN P.2.2) fun i =>
  forced (Nat.mod (Nat.mul P.1 i) pN) fun x =>
  forced (Nat.mod (Nat.mul P.2.1 i) pN) fun y => leBytes 57 (y + 2 ^ 455 * (x % 2))

/-- The encoding of `n B`. -/
def encodeMul (n : ℕ) : List (BitVec 8) := forced (n % qN) fun n => encodeP (pmul pB 446 n)

/-- The public key for a secret scalar. -/
def publicOf (s : ℕ) : List (BitVec 8) := encodeMul s

/-- The bytes, after all of them have been evaluated. -/
def forcedBytes {α : Type} (l : List (BitVec 8)) (k : List (BitVec 8) → α) : α := forcedList (l.map BitVec.toNat) fun l => k (l.map (BitVec.ofNat 8))

/-- The signature. -/
def signWith (shake : Xof) (s : ℕ) (pre m : List (BitVec 8)) : List (BitVec 8) :=
  forced (RFC.nonce shake pre m) fun r =>
  forcedBytes (encodeMul r) fun R =>
  forcedBytes (publicOf s) fun A =>
  forced (RFC.challenge shake R A m) fun k => R ++ leBytes 57 ((r + k * s) % qN)

/-- The public key of RFC 8032. -/
def publicKey (shake : Xof) (k : List (BitVec 8)) : List (BitVec 8) := forced (RFC.secretScalar ((RFC.hash shake k 114).take 57)) publicOf

/-- The signature of RFC 8032. -/
def sign (shake : Xof) (k m : List (BitVec 8)) : List (BitVec 8) :=
  forcedBytes (RFC.hash shake k 114) fun h => forced (RFC.secretScalar (h.take 57)) fun s => signWith shake s (h.drop 57) m

theorem forced_eq {α : Type} (a : ℕ) (k : ℕ → α) : forced a k = k a := by cases a <;> rfl

theorem forcedList_eq {α : Type} : ∀ (l : List ℕ) (k : List ℕ → α), forcedList l k = k l
  | [], _ => rfl
  | a :: l, k => by rw [forcedList, forced_eq, forcedList_eq l]

theorem forcedBytes_eq {α : Type} (l : List (BitVec 8)) (k : List (BitVec 8) → α) : forcedBytes l k = k l := by
  rw [forcedBytes, forcedList_eq, List.map_map]
  congr 1
  conv_rhs => rw [← List.map_id l]
  refine List.map_congr_left fun b _ => ?_
  simp

theorem encodeP_eq {P : PP} {A : E} (h : PRep P A) : encodeP P = encodePoint A := by
  obtain ⟨h1, h2, h3⟩ := h
  have e1 : ((Nat.mul P.1 (invN P.2.2) : ℕ) : F) = A.x := by
    show ((P.1 * invN P.2.2 : ℕ) : F) = A.x
    rw [Nat.cast_mul, cast_invN, ← h2, mul_inv_cancel_right₀ h1]
  have e2 : ((Nat.mul P.2.1 (invN P.2.2) : ℕ) : F) = A.y := by
    show ((P.2.1 * invN P.2.2 : ℕ) : F) = A.y
    rw [Nat.cast_mul, cast_invN, ← h3, mul_inv_cancel_right₀ h1]
  rw [encodeP, forced_eq, forced_eq, forced_eq, val_modN, val_modN, e1, e2, encodePoint]

theorem encodeMul_eq (n : ℕ) : encodeMul n = encodePoint (n • B) := by
  have hlt : n % q < 2 ^ 446 := lt_of_lt_of_le (Nat.mod_lt _ (by rw [q_def]; decide +kernel)) (by rw [q_def]; decide +kernel)
  rw [encodeMul, forced_eq, qN_eq, encodeP_eq (pmul_rep pB_rep 446 _ hlt), smul_B_mod]

theorem publicOf_eq (s : ℕ) : publicOf s = RFC.publicOf s := encodeMul_eq s

theorem signWith_eq (shake : Xof) (s : ℕ) (pre m : List (BitVec 8)) : signWith shake s pre m = RFC.signWith shake s pre m := by
  rw [signWith, forced_eq, forcedBytes_eq, forcedBytes_eq, forced_eq, encodeMul_eq, publicOf_eq, qN_eq]
  rfl

theorem publicKey_eq (shake : Xof) (k : List (BitVec 8)) : publicKey shake k = RFC.publicKey shake k := by
  rw [publicKey, forced_eq, publicOf_eq]
  rfl

theorem sign_eq (shake : Xof) (k m : List (BitVec 8)) : sign shake k m = RFC.sign shake k m := by
  rw [sign, forcedBytes_eq, forced_eq, signWith_eq]
  rfl

end Ed448.Alg
