import Verif.Spec.Curve

/-!
# Evaluating the group of Ed448 on numbers

Projective coordinates as natural numbers modulo p, for computations done by the kernel (order of the base point, tables).
-/

set_option exponentiation.threshold 1000

namespace Ed448

/-- `p` as a literal. -/
def pN : ℕ := 726838724295606890549323807888004534353641360687318060281490199180639288113397923326191050713763565560762521606266177933534601628614655 -
  26959946667150639794667015087019630673637144422540572481103610249216

theorem pN_eq : pN = p := by rw [p_def]; decide +kernel

theorem cast_mod_pN (a : ℕ) : ((a % pN : ℕ) : F) = (a : F) := by
  rw [pN_eq, ZMod.natCast_mod]

/-- Projective coordinates `(X, Y, Z)`. -/
abbrev PP := ℕ × ℕ × ℕ

/-- The projective triple represents the point. -/
def PRep (P : PP) (A : E) : Prop := (P.2.2 : F) ≠ 0 ∧ A.x * P.2.2 = P.1 ∧ A.y * P.2.2 = P.2.1

/-- Projective addition. -/
def padd (P Q : PP) : PP :=
  let a := P.2.2 * Q.2.2 % pN
  let b := a * a % pN
  let c := P.1 * Q.1 % pN
  let d := P.2.1 * Q.2.1 % pN
  let e := 39081 * c * d % pN
  let f := (b + e) % pN
  let g := (b + (pN - e)) % pN
  (a * f % pN * (P.1 * Q.2.1 + Q.1 * P.2.1) % pN, a * g % pN * (d + (pN - c)) % pN, f * g % pN)

theorem cast_sub_mod (a : ℕ) : ((pN - a % pN : ℕ) : F) = -(a : F) := by
  have : a % pN ≤ pN := (Nat.mod_lt _ (by decide +kernel)).le
  rw [Nat.cast_sub this, cast_mod_pN, pN_eq, ZMod.natCast_self, zero_sub]

theorem padd_rep {P Q : PP} {A C : E} (hP : PRep P A) (hQ : PRep Q C) : PRep (padd P Q) (A + C) := by
  obtain ⟨pX, pY, pZ⟩ := P
  obtain ⟨qX, qY, qZ⟩ := Q
  obtain ⟨h1, h2, h3⟩ := hP
  obtain ⟨g1, g2, g3⟩ := hQ
  have dp := edwards_den_pos A.on C.on
  have dn := edwards_den_neg A.on C.on
  have hx := Edw.add_x_mul A C
  have hy := Edw.add_y_mul A C
  simp only [PRep, padd, cast_mod_pN, Nat.cast_mul, Nat.cast_add, cast_sub_mod] at *
  rw [← h2, ← h3, ← g2, ← g3]
  have hd : edD = -((39081 : ℕ) : F) := by rw [edD]; norm_num
  generalize ((39081 : ℕ) : F) = k at *
  generalize (pZ : F) = z1 at *
  generalize (qZ : F) = z2 at *
  generalize (A + C).x = x3 at *
  generalize (A + C).y = y3 at *
  generalize A.x = x1 at *
  generalize A.y = y1 at *
  generalize C.x = x2 at *
  generalize C.y = y2 at *
  rw [hd] at dp dn hx hy
  refine ⟨?_, ?_, ?_⟩
  · have e : (z1 * z2 * (z1 * z2) + k * (x1 * z1 * (x2 * z2)) * (y1 * z1 * (y2 * z2))) *
        (z1 * z2 * (z1 * z2) + -(k * (x1 * z1 * (x2 * z2)) * (y1 * z1 * (y2 * z2)))) =
        ((z1 * z2) ^ 2 * (1 - -k * x1 * x2 * y1 * y2)) * ((z1 * z2) ^ 2 * (1 + -k * x1 * x2 * y1 * y2)) := by ring
    rw [e]
    exact mul_ne_zero (mul_ne_zero (pow_ne_zero _ (mul_ne_zero h1 g1)) dn) (mul_ne_zero (pow_ne_zero _ (mul_ne_zero h1 g1)) dp)
  · linear_combination (z1 * z2) ^ 4 * (1 - -k * x1 * x2 * y1 * y2) * hx
  · linear_combination (z1 * z2) ^ 4 * (1 + -k * x1 * x2 * y1 * y2) * hy

/-- Projective scalar multiplication by `n < 2^k`. -/
def pmul (P : PP) : ℕ → ℕ → PP
  | 0, _ => (0, 1, 1)
  | k + 1, n =>
    let r := pmul P k (n / 2)
    let s := padd r r
    cond (Nat.beq (n % 2) 0) s (padd s P)

theorem pzero_rep : PRep (0, 1, 1) 0 := by
  simp [PRep]

theorem pmul_rep {P : PP} {A : E} (hP : PRep P A) : ∀ k n, n < 2 ^ k → PRep (pmul P k n) (n • A)
  | 0, n, h => by
    have : n = 0 := by simpa using h
    subst this
    simpa [pmul] using pzero_rep
  | k + 1, n, h => by
    have ih := pmul_rep hP k (n / 2) (by rw [pow_succ] at h; omega)
    have h2 := padd_rep ih ih
    rw [← add_nsmul] at h2
    simp only [pmul]
    rcases Nat.mod_two_eq_zero_or_one n with hm | hm
    · rw [hm, show n = n / 2 + n / 2 by omega]
      rw [show n / 2 + n / 2 = n by omega] at *
      exact h2
    · rw [hm]
      have h3 := padd_rep h2 hP
      rw [← succ_nsmul, show n / 2 + n / 2 + 1 = n by omega] at h3
      exact h3

/-- Negation. -/
def pneg (P : PP) : PP := (pN - P.1 % pN, P.2.1, P.2.2)

theorem pneg_rep {P : PP} {A : E} (hP : PRep P A) : PRep (pneg P) (-A) := by
  obtain ⟨h1, h2, h3⟩ := hP
  refine ⟨h1, ?_, h3⟩
  simp only [pneg, cast_sub_mod, Edw.neg_x]
  rw [← h2]; ring

/-- The base point. -/
def pB : PP :=
  (224580040295924300187604334099896036246789641632564134246125461686950415467406032909029192869357953282578032075146446173674602635247710,
   298819210078481492676017930443930673437544040154080242095928241372331506189835876003536878655418784733982303233503462500531545062832660, 1)

theorem pB_rep : PRep pB B := by
  refine ⟨by simp [pB], ?_, ?_⟩
  · simp only [pB, B, Nat.cast_one, mul_one]; exact (Nat.cast_ofNat).symm
  · simp only [pB, B, Nat.cast_one, mul_one]; exact (Nat.cast_ofNat).symm

/-- A point is zero if its projective coordinates say so. -/
def pIsZero (P : PP) : Bool := Nat.beq (P.1 % pN) 0 && Nat.beq ((P.2.1 + (pN - P.2.2 % pN)) % pN) 0

theorem pIsZero_rep {P : PP} {A : E} (hP : PRep P A) : pIsZero P = true ↔ A = 0 := by
  obtain ⟨h1, h2, h3⟩ := hP
  have key : ∀ a : ℕ, a % pN = 0 ↔ (a : F) = 0 := fun a => by
    rw [ZMod.natCast_eq_zero_iff, pN_eq, Nat.dvd_iff_mod_eq_zero]
  simp only [pIsZero, Bool.and_eq_true, Nat.beq_eq, key, Nat.cast_add, cast_sub_mod]
  rw [← h2, ← h3]
  constructor
  · rintro ⟨a, b⟩
    ext
    · exact (mul_eq_zero.mp a).resolve_right h1
    · have : (A.y - 1) * (P.2.2 : F) = 0 := by linear_combination b
      rw [Edw.zero_y]
      exact sub_eq_zero.mp ((mul_eq_zero.mp this).resolve_right h1)
  · rintro rfl
    simp

end Ed448
