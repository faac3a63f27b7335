import Verif.Math.EdwardsAssoc
import Mathlib.Tactic.FieldSimp
import Mathlib.Tactic.Ring
import Mathlib.Algebra.Group.Even
import Mathlib.Algebra.Group.Defs
import Mathlib.Algebra.Ring.Parity

/-!
# The complete Edwards curve `x² + y² = 1 + d x² y²` and its group

`d` is not a square and 2 is not zero, so the addition law has no exceptions.
-/

namespace Ed448

variable {K : Type*} [Field K]

/-- What makes the addition law complete. -/
class EdwardsCoeff (d : K) : Prop where
  nonsquare : ¬ IsSquare d
  two_ne_zero : (2 : K) ≠ 0

/-- An affine point of the curve. -/
@[ext] structure Edw (d : K) where
  x : K
  y : K
  on : x ^ 2 + y ^ 2 = 1 + d * x ^ 2 * y ^ 2

variable {d : K}

theorem edwards_complete [hd : EdwardsCoeff d] {x1 y1 x2 y2 : K}
    (h1 : x1 ^ 2 + y1 ^ 2 = 1 + d * x1 ^ 2 * y1 ^ 2) (h2 : x2 ^ 2 + y2 ^ 2 = 1 + d * x2 ^ 2 * y2 ^ 2) :
    (d * x1 * x2 * y1 * y2) ^ 2 ≠ 1 := by
  intro h
  have hne : d * x1 * x2 * y1 * y2 ≠ 0 := by
    intro h0; rw [h0] at h; simp at h
  have hx1 : x1 ≠ 0 := by rintro rfl; simp at hne
  have hy1 : y1 ≠ 0 := by rintro rfl; simp at hne
  have hx2 : x2 ≠ 0 := by rintro rfl; simp at hne
  have key : ∀ s : K, s ^ 2 = 1 → x2 + s * y2 ≠ 0 → False := by
    intro s hs hne'
    apply hd.nonsquare
    have e : (x1 + s * (d * x1 * x2 * y1 * y2) * y1) ^ 2 = d * (x1 * y1 * (x2 + s * y2)) ^ 2 := by
      linear_combination h1 - d * x1 ^ 2 * y1 ^ 2 * h2 + (s ^ 2 * y1 ^ 2 - 1) * h + (y1 ^ 2 - d * x1 ^ 2 * y1 ^ 2 * y2 ^ 2) * hs
    refine ⟨(x1 + s * (d * x1 * x2 * y1 * y2) * y1) / (x1 * y1 * (x2 + s * y2)), ?_⟩
    rw [div_mul_div_comm, ← pow_two, ← pow_two, e]
    field_simp
  by_cases hs : x2 + y2 = 0
  · by_cases ht : x2 - y2 = 0
    · have : 2 * x2 = 0 := by linear_combination hs + ht
      rcases mul_eq_zero.mp this with h' | h'
      · exact hd.two_ne_zero h'
      · exact hx2 h'
    · exact key (-1) (by ring) (by intro h'; apply ht; linear_combination h')
  · exact key 1 (by ring) (by simpa using hs)

theorem edwards_den_pos [EdwardsCoeff d] {x1 y1 x2 y2 : K}
    (h1 : x1 ^ 2 + y1 ^ 2 = 1 + d * x1 ^ 2 * y1 ^ 2) (h2 : x2 ^ 2 + y2 ^ 2 = 1 + d * x2 ^ 2 * y2 ^ 2) :
    1 + d * x1 * x2 * y1 * y2 ≠ 0 := by
  intro h
  exact edwards_complete h1 h2 (by linear_combination (d * x1 * x2 * y1 * y2 - 1) * h)

theorem edwards_den_neg [EdwardsCoeff d] {x1 y1 x2 y2 : K}
    (h1 : x1 ^ 2 + y1 ^ 2 = 1 + d * x1 ^ 2 * y1 ^ 2) (h2 : x2 ^ 2 + y2 ^ 2 = 1 + d * x2 ^ 2 * y2 ^ 2) :
    1 - d * x1 * x2 * y1 * y2 ≠ 0 := by
  intro h
  exact edwards_complete h1 h2 (by linear_combination -(d * x1 * x2 * y1 * y2 + 1) * h)

theorem div_on_curve {a b p n : K} (hp : p ≠ 0) (hn : n ≠ 0)
    (h : a ^ 2 * n ^ 2 + b ^ 2 * p ^ 2 = p ^ 2 * n ^ 2 + d * a ^ 2 * b ^ 2) :
    (a / p) ^ 2 + (b / n) ^ 2 = 1 + d * (a / p) ^ 2 * (b / n) ^ 2 := by
  field_simp
  linear_combination h

theorem eq_of_cross {X X' DL DR NL NR : K} (hl : X * DL = NL) (hr : X' * DR = NR) (h : NL * DR = NR * DL)
    (hDL : DL ≠ 0) (hDR : DR ≠ 0) : X = X' := by
  apply mul_right_cancel₀ (mul_ne_zero hDL hDR)
  linear_combination DR * hl - DL * hr + h

theorem edwards_closure {x1 y1 x2 y2 : K}
    (h1 : x1 ^ 2 + y1 ^ 2 = 1 + d * x1 ^ 2 * y1 ^ 2) (h2 : x2 ^ 2 + y2 ^ 2 = 1 + d * x2 ^ 2 * y2 ^ 2) :
    (x1 * y2 + x2 * y1) ^ 2 * (1 - d * x1 * x2 * y1 * y2) ^ 2 + (y1 * y2 - x1 * x2) ^ 2 * (1 + d * x1 * x2 * y1 * y2) ^ 2 =
      (1 + d * x1 * x2 * y1 * y2) ^ 2 * (1 - d * x1 * x2 * y1 * y2) ^ 2 +
        d * (x1 * y2 + x2 * y1) ^ 2 * (y1 * y2 - x1 * x2) ^ 2 := by
  linear_combination (-(-x1^2 * y1^2 * x2^4 * y2^4 * d^3 - x1^2 * x2^4 * y2^4 * d^2 + x1^2 * x2^4 * y2^2 * d +
      x1^2 * x2^2 * y2^4 * d - y1^2 * x2^4 * y2^4 * d^2 + y1^2 * x2^4 * y2^2 * d + y1^2 * x2^2 * y2^4 * d +
      x2^4 * y2^4 * d^2 - 2 * x2^4 * y2^4 * d + 2 * x2^4 * y2^2 - x2^4 + 2 * x2^2 * y2^4 + 2 * x2^2 * y2^2 * d -
      4 * x2^2 * y2^2 - y2^4)) * h1 + (-(-x1^4 * x2^2 * y2^2 * d + 2 * x1^2 * x2^2 * y2^2 * d -
      2 * x1^2 * x2^2 * y2^2 + x1^2 * x2^2 + x1^2 * y2^2 - y1^4 * x2^2 * y2^2 * d + 2 * y1^2 * x2^2 * y2^2 * d -
      2 * y1^2 * x2^2 * y2^2 + y1^2 * x2^2 + y1^2 * y2^2 - x2^2 * y2^2 * d + 2 * x2^2 * y2^2 - x2^2 - y2^2 - 1)) * h2

namespace Edw

instance : Zero (Edw d) := ⟨⟨0, 1, by ring⟩⟩
instance : Neg (Edw d) := ⟨fun P => ⟨-P.x, P.y, by linear_combination P.on⟩⟩
@[simp] theorem zero_x : (0 : Edw d).x = 0 := rfl
@[simp] theorem zero_y : (0 : Edw d).y = 1 := rfl
@[simp] theorem neg_x (P : Edw d) : (-P).x = -P.x := rfl
@[simp] theorem neg_y (P : Edw d) : (-P).y = P.y := rfl

section ops
variable [EdwardsCoeff d]

instance : Add (Edw d) := ⟨fun P Q =>
  ⟨(P.x * Q.y + Q.x * P.y) / (1 + d * P.x * Q.x * P.y * Q.y),
   (P.y * Q.y - P.x * Q.x) / (1 - d * P.x * Q.x * P.y * Q.y), by
    have hp := edwards_den_pos P.on Q.on
    have hn := edwards_den_neg P.on Q.on
    have h1 := P.on
    have h2 := Q.on
    generalize P.x = x1 at *
    generalize P.y = y1 at *
    generalize Q.x = x2 at *
    generalize Q.y = y2 at *
    exact div_on_curve hp hn (edwards_closure h1 h2)⟩⟩

theorem add_x (P Q : Edw d) : (P + Q).x = (P.x * Q.y + Q.x * P.y) / (1 + d * P.x * Q.x * P.y * Q.y) := rfl
theorem add_y (P Q : Edw d) : (P + Q).y = (P.y * Q.y - P.x * Q.x) / (1 - d * P.x * Q.x * P.y * Q.y) := rfl

theorem add_x_mul (P Q : Edw d) : (P + Q).x * (1 + d * P.x * Q.x * P.y * Q.y) = P.x * Q.y + Q.x * P.y := by
  rw [add_x, div_mul_cancel₀ _ (edwards_den_pos P.on Q.on)]

theorem add_y_mul (P Q : Edw d) : (P + Q).y * (1 - d * P.x * Q.x * P.y * Q.y) = P.y * Q.y - P.x * Q.x := by
  rw [add_y, div_mul_cancel₀ _ (edwards_den_neg P.on Q.on)]

theorem add_comm' (P Q : Edw d) : P + Q = Q + P := by
  ext
  · rw [add_x, add_x]; congr 1 <;> ring
  · rw [add_y, add_y]; congr 1 <;> ring

theorem add_assoc' (P Q R : Edw d) : P + Q + R = P + (Q + R) := by
  have hpq := edwards_den_pos P.on Q.on
  have hpq' := edwards_den_neg P.on Q.on
  have hqr := edwards_den_pos Q.on R.on
  have hqr' := edwards_den_neg Q.on R.on
  have xpq := add_x_mul P Q
  have ypq := add_y_mul P Q
  have xqr := add_x_mul Q R
  have yqr := add_y_mul Q R
  have dl := edwards_den_pos (P + Q).on R.on
  have dl' := edwards_den_neg (P + Q).on R.on
  have dr := edwards_den_pos P.on (Q + R).on
  have dr' := edwards_den_neg P.on (Q + R).on
  have xl := add_x_mul (P + Q) R
  have yl := add_y_mul (P + Q) R
  have xr := add_x_mul P (Q + R)
  have yr := add_y_mul P (Q + R)
  have ax := edwards_assoc_x P.on Q.on R.on
  have ay := edwards_assoc_y P.on Q.on R.on
  ext
  · refine eq_of_cross (DL := (1 + d * (P + Q).x * R.x * (P + Q).y * R.y) *
        ((1 + d * P.x * Q.x * P.y * Q.y) * (1 - d * P.x * Q.x * P.y * Q.y)))
      (DR := (1 + d * P.x * (Q + R).x * P.y * (Q + R).y) *
        ((1 + d * Q.x * R.x * Q.y * R.y) * (1 - d * Q.x * R.x * Q.y * R.y)))
      (NL := (P.x * Q.y + Q.x * P.y) * (1 - d * P.x * Q.x * P.y * Q.y) * R.y +
        (P.y * Q.y - P.x * Q.x) * (1 + d * P.x * Q.x * P.y * Q.y) * R.x)
      (NR := P.x * (Q.y * R.y - Q.x * R.x) * (1 + d * Q.x * R.x * Q.y * R.y) +
        P.y * (Q.x * R.y + R.x * Q.y) * (1 - d * Q.x * R.x * Q.y * R.y)) ?_ ?_ ?_
      (mul_ne_zero dl (mul_ne_zero hpq hpq')) (mul_ne_zero dr (mul_ne_zero hqr hqr'))
    · rw [← mul_assoc, xl, ← xpq, ← ypq]; ring
    · rw [← mul_assoc, xr, ← xqr, ← yqr]; ring
    · rw [← xpq, ← ypq, ← xqr, ← yqr] at ax
      rw [← xpq, ← ypq, ← xqr, ← yqr]
      linear_combination ax
  · refine eq_of_cross (DL := (1 - d * (P + Q).x * R.x * (P + Q).y * R.y) *
        ((1 + d * P.x * Q.x * P.y * Q.y) * (1 - d * P.x * Q.x * P.y * Q.y)))
      (DR := (1 - d * P.x * (Q + R).x * P.y * (Q + R).y) *
        ((1 + d * Q.x * R.x * Q.y * R.y) * (1 - d * Q.x * R.x * Q.y * R.y)))
      (NL := (P.y * Q.y - P.x * Q.x) * (1 + d * P.x * Q.x * P.y * Q.y) * R.y -
        (P.x * Q.y + Q.x * P.y) * (1 - d * P.x * Q.x * P.y * Q.y) * R.x)
      (NR := P.y * (Q.y * R.y - Q.x * R.x) * (1 + d * Q.x * R.x * Q.y * R.y) -
        P.x * (Q.x * R.y + R.x * Q.y) * (1 - d * Q.x * R.x * Q.y * R.y)) ?_ ?_ ?_
      (mul_ne_zero dl' (mul_ne_zero hpq hpq')) (mul_ne_zero dr' (mul_ne_zero hqr hqr'))
    · rw [← mul_assoc, yl, ← xpq, ← ypq]; ring
    · rw [← mul_assoc, yr, ← xqr, ← yqr]; ring
    · rw [← xpq, ← ypq, ← xqr, ← yqr] at ay
      rw [← xpq, ← ypq, ← xqr, ← yqr]
      linear_combination ay

/-- The group of points. Multiples `n • P` are iterated addition. -/
instance : AddCommGroup (Edw d) where
  add_assoc := add_assoc'
  zero_add P := by ext <;> simp [add_x, add_y]
  add_zero P := by ext <;> simp [add_x, add_y]
  add_comm := add_comm'
  nsmul := nsmulRec
  zsmul := zsmulRec
  neg_add_cancel P := by
    have hp := edwards_den_pos (-P).on P.on
    have hn := edwards_den_neg (-P).on P.on
    ext
    · rw [add_x]
      rw [show (-P).x * P.y + P.x * (-P).y = 0 by simp]
      simp
    · rw [add_y, div_eq_iff hn]
      simp
      linear_combination P.on

end ops
end Edw
end Ed448
