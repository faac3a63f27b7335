import Verif.Math.Edwards
import Verif.Math.IsogenyCert

/-!
# The 4-isogeny to the twisted curve `y² - x² = 1 + (d-1) x² y²`

`phi(x,y) = (2xy/(x²-y²), (x²+y²)/(2-x²-y²))`. The twisted curve's group is never needed: only
the values of `phi`.
-/

namespace Ed448

variable {K : Type*} [Field K]

/-- The quadratic characters that make the isogeny total and the twisted addition law free of exceptions on its image. -/
class IsogenyCoeff (d : K) : Prop extends EdwardsCoeff d where
  neg_one : ¬ IsSquare (-1 : K)
  twist : IsSquare (d - 1)

variable {d : K}

theorem coeff_ne_zero [h : EdwardsCoeff d] : d ≠ 0 := by
  rintro rfl
  exact h.nonsquare ⟨0, by ring⟩

theorem sq_add_sq_ne_zero (h : ¬ IsSquare (-1 : K)) {x y : K} (hy : y ≠ 0) : x ^ 2 + y ^ 2 ≠ 0 := by
  intro h0
  apply h
  refine ⟨x / y, ?_⟩
  field_simp
  linear_combination -h0

namespace Edw

/-- First coordinate of the isogeny. -/
def phiX (A : Edw d) : K := 2 * (A.x * A.y) / (A.x ^ 2 - A.y ^ 2)
/-- Second coordinate of the isogeny. -/
def phiY (A : Edw d) : K := (A.x ^ 2 + A.y ^ 2) / (2 - A.x ^ 2 - A.y ^ 2)

variable [hd : IsogenyCoeff d]

theorem phi_den_x (A : Edw d) : A.x ^ 2 - A.y ^ 2 ≠ 0 := by
  intro h
  have h1 := A.on
  obtain ⟨r, hr⟩ := hd.twist
  have e : (d * A.x ^ 2 - 1) ^ 2 + r ^ 2 = 0 := by
    linear_combination (-d) * h1 - hr + (- d + d ^ 2 * A.x ^ 2) * h
  rcases eq_or_ne r 0 with h0 | h0
  · apply hd.nonsquare
    rw [h0] at hr
    exact ⟨1, by linear_combination hr⟩
  · exact sq_add_sq_ne_zero hd.neg_one h0 e

theorem phi_den_y (A : Edw d) : 2 - A.x ^ 2 - A.y ^ 2 ≠ 0 := by
  intro h
  have h1 := A.on
  have e : d * (A.x * A.y) ^ 2 = 1 := by linear_combination -h - h1
  have hne : A.x * A.y ≠ 0 := by
    intro h0; rw [h0] at e; simp at e
  apply hd.nonsquare
  refine ⟨1 / (A.x * A.y), ?_⟩
  generalize A.x * A.y = m at *
  field_simp
  linear_combination e

theorem sum_sq_ne_zero (A : Edw d) : A.x ^ 2 + A.y ^ 2 ≠ 0 := by
  rcases eq_or_ne A.y 0 with h | h
  · have := A.on
    rw [h] at this ⊢
    intro h0
    have h1 : A.x ^ 2 = 0 := by simpa using h0
    rw [h1] at this
    simp at this
  · exact sq_add_sq_ne_zero hd.neg_one h

theorem phiY_ne_zero (A : Edw d) : A.phiY ≠ 0 := div_ne_zero A.sum_sq_ne_zero A.phi_den_y

theorem phiX_mul (A : Edw d) : A.phiX * (A.x ^ 2 - A.y ^ 2) = 2 * (A.x * A.y) := by
  rw [phiX, div_mul_cancel₀ _ A.phi_den_x]

theorem phiY_mul (A : Edw d) : A.phiY * (2 - A.x ^ 2 - A.y ^ 2) = A.x ^ 2 + A.y ^ 2 := by
  rw [phiY, div_mul_cancel₀ _ A.phi_den_y]

omit hd in
theorem phi_on_aux {m s D E : K} (hD : D ≠ 0) (hE : E ≠ 0) (h1 : D ^ 2 = s ^ 2 - m ^ 2) (h2 : E = 2 - s)
    (h3 : 4 * (s - 1) = d * m ^ 2) : (s / E) ^ 2 - (m / D) ^ 2 = 1 + (d - 1) * (m / D) ^ 2 * (s / E) ^ 2 := by
  field_simp
  rw [h2]
  linear_combination (s ^ 2 - (2 - s) ^ 2) * h1 + s ^ 2 * h3

/-- The image is on the twisted curve. -/
theorem phi_on (A : Edw d) : A.phiY ^ 2 - A.phiX ^ 2 = 1 + (d - 1) * A.phiX ^ 2 * A.phiY ^ 2 :=
  phi_on_aux A.phi_den_x A.phi_den_y (by ring) (by ring) (by linear_combination 4 * A.on)

/-- `1 + X²` is a square on the image. -/
theorem phi_sq (A : Edw d) : ∃ h : K, h ^ 2 = 1 + A.phiX ^ 2 := by
  refine ⟨(A.x ^ 2 + A.y ^ 2) / (A.x ^ 2 - A.y ^ 2), ?_⟩
  have h1 := A.phi_den_x
  rw [phiX]
  field_simp
  ring

theorem phi_complete (A B : Edw d) : ((d - 1) * A.phiX * B.phiX * A.phiY * B.phiY) ^ 2 ≠ 1 := by
  have hA := A.phi_on
  have hB := B.phi_on
  obtain ⟨g, hg⟩ := A.phi_sq
  obtain ⟨h, hh⟩ := B.phi_sq
  obtain ⟨r, hr⟩ := hd.twist
  generalize A.phiX = X1 at *
  generalize A.phiY = Y1 at *
  generalize B.phiX = X2 at *
  generalize B.phiY = Y2 at *
  intro hc
  have e1 : Y1 ^ 2 * (1 - (d - 1) * X1 ^ 2) = 1 + X1 ^ 2 := by linear_combination hA
  have e2 : Y2 ^ 2 * (1 - (d - 1) * X2 ^ 2) = 1 + X2 ^ 2 := by linear_combination hB
  have e3 : (1 + (d - 1) * X1 ^ 2 * X2 ^ 2) * (d - (d - 1) * ((1 + X1 ^ 2) * (1 + X2 ^ 2))) = 0 := by
    have : (d - 1) ^ 2 * X1 ^ 2 * X2 ^ 2 * ((1 + X1 ^ 2) * (1 + X2 ^ 2)) =
        (1 - (d - 1) * X1 ^ 2) * (1 - (d - 1) * X2 ^ 2) := by
      rw [← e1, ← e2]
      linear_combination (1 - (d - 1) * X1 ^ 2) * (1 - (d - 1) * X2 ^ 2) * hc
    linear_combination -this
  rcases mul_eq_zero.mp e3 with h0 | h0
  · apply hd.neg_one
    exact ⟨r * (X1 * X2), by rw [hr] at h0; linear_combination -h0⟩
  · apply hd.nonsquare
    refine ⟨r * (g * h), ?_⟩
    rw [← hg, ← hh] at h0
    linear_combination h0 + g ^ 2 * h ^ 2 * hr

theorem phi_den_pos (A B : Edw d) : 1 + (d - 1) * A.phiX * B.phiX * A.phiY * B.phiY ≠ 0 := by
  intro h
  exact phi_complete A B (by linear_combination ((d - 1) * A.phiX * B.phiX * A.phiY * B.phiY - 1) * h)

theorem phi_den_neg (A B : Edw d) : 1 - (d - 1) * A.phiX * B.phiX * A.phiY * B.phiY ≠ 0 := by
  intro h
  exact phi_complete A B (by linear_combination -((d - 1) * A.phiX * B.phiX * A.phiY * B.phiY + 1) * h)

omit hd in
theorem iso_aux_x {a b p n D1 D2 E1 E2 m1 m2 s1 s2 dt : K} (hp : p ≠ 0) (hn : n ≠ 0) (hD1 : D1 ≠ 0) (hD2 : D2 ≠ 0)
    (hE1 : E1 ≠ 0) (hE2 : E2 ≠ 0) (h3 : (a / p) ^ 2 - (b / n) ^ 2 ≠ 0)
    (h : 2 * (a * b) * (p * n) * (D1 * E1 * (D2 * E2) + dt * (2 * m1) * (2 * m2) * s1 * s2) =
      (a ^ 2 * n ^ 2 - b ^ 2 * p ^ 2) * (2 * m1 * s2 * (E1 * D2) + s1 * (2 * m2) * (D1 * E2))) :
    2 * (a / p * (b / n)) / ((a / p) ^ 2 - (b / n) ^ 2) * (1 + dt * (2 * m1 / D1) * (2 * m2 / D2) * (s1 / E1) * (s2 / E2)) =
      2 * m1 / D1 * (s2 / E2) + s1 / E1 * (2 * m2 / D2) := by
  rw [div_mul_eq_mul_div, div_eq_iff h3]
  field_simp
  linear_combination h

omit hd in
theorem iso_aux_y {a b p n D1 D2 E1 E2 m1 m2 s1 s2 dt : K} (hp : p ≠ 0) (hn : n ≠ 0) (hD1 : D1 ≠ 0) (hD2 : D2 ≠ 0)
    (hE1 : E1 ≠ 0) (hE2 : E2 ≠ 0) (h3 : 2 - (a / p) ^ 2 - (b / n) ^ 2 ≠ 0)
    (h : (a ^ 2 * n ^ 2 + b ^ 2 * p ^ 2) * (D1 * E1 * (D2 * E2) - dt * (2 * m1) * (2 * m2) * s1 * s2) =
      (2 * (p * n) ^ 2 - (a ^ 2 * n ^ 2 + b ^ 2 * p ^ 2)) * (s1 * s2 * (D1 * D2) + 2 * m1 * (2 * m2) * (E1 * E2))) :
    ((a / p) ^ 2 + (b / n) ^ 2) / (2 - (a / p) ^ 2 - (b / n) ^ 2) *
      (1 - dt * (2 * m1 / D1) * (2 * m2 / D2) * (s1 / E1) * (s2 / E2)) =
      s1 / E1 * (s2 / E2) + 2 * m1 / D1 * (2 * m2 / D2) := by
  rw [div_mul_eq_mul_div, div_eq_iff h3]
  field_simp
  linear_combination h

theorem phiX_add (A B : Edw d) : (A + B).phiX * (1 + (d - 1) * A.phiX * B.phiX * A.phiY * B.phiY) =
    A.phiX * B.phiY + A.phiY * B.phiX := by
  have h := isogeny_add_x A.on B.on rfl rfl rfl rfl rfl rfl rfl rfl rfl rfl rfl rfl
  have h' := mul_left_cancel₀ (pow_ne_zero 2 coeff_ne_zero) h
  exact iso_aux_x (edwards_den_pos A.on B.on) (edwards_den_neg A.on B.on) A.phi_den_x B.phi_den_x A.phi_den_y B.phi_den_y
    (A + B).phi_den_x h'

theorem phiY_add (A B : Edw d) : (A + B).phiY * (1 - (d - 1) * A.phiX * B.phiX * A.phiY * B.phiY) =
    A.phiY * B.phiY + A.phiX * B.phiX := by
  have h := isogeny_add_y A.on B.on rfl rfl rfl rfl rfl rfl rfl rfl rfl rfl rfl rfl
  have h' := mul_left_cancel₀ coeff_ne_zero h
  exact iso_aux_y (edwards_den_pos A.on B.on) (edwards_den_neg A.on B.on) A.phi_den_x B.phi_den_x A.phi_den_y B.phi_den_y
    (A + B).phi_den_y h'

omit hd in
@[simp] theorem phiX_zero : (0 : Edw d).phiX = 0 := by simp [phiX]
omit hd in
@[simp] theorem phiY_zero : (0 : Edw d).phiY = 1 := by
  rw [phiY, zero_x, zero_y]; norm_num
omit hd in
@[simp] theorem phiX_neg (A : Edw d) : (-A).phiX = -A.phiX := by
  rw [phiX, phiX, neg_x, neg_y, neg_sq, ← neg_div]; congr 1; ring
omit hd in
@[simp] theorem phiY_neg (A : Edw d) : (-A).phiY = A.phiY := by
  rw [phiY, phiY, neg_x, neg_y, neg_sq]

theorem phiX_double (A : Edw d) : (A + A).phiX * (A.phiY ^ 2 - A.phiX ^ 2) = 2 * (A.phiX * A.phiY) := by
  have h := phiX_add A A
  have h' := A.phi_on
  linear_combination h + (A + A).phiX * h'

theorem phiY_double (A : Edw d) : (A + A).phiY * (2 - A.phiY ^ 2 + A.phiX ^ 2) = A.phiY ^ 2 + A.phiX ^ 2 := by
  have h := phiY_add A A
  have h' := A.phi_on
  linear_combination h - (A + A).phiY * h'

theorem phi_double_den_x (A : Edw d) : A.phiY ^ 2 - A.phiX ^ 2 ≠ 0 := by
  intro h
  apply phi_den_pos A A
  linear_combination h - A.phi_on

theorem phi_double_den_y (A : Edw d) : 2 - A.phiY ^ 2 + A.phiX ^ 2 ≠ 0 := by
  intro h
  apply phi_den_neg A A
  linear_combination h + A.phi_on

theorem phi_sum_sq_ne_zero (A : Edw d) : A.phiX ^ 2 + A.phiY ^ 2 ≠ 0 :=
  sq_add_sq_ne_zero hd.neg_one A.phiY_ne_zero

/-! ### Doubling on the Edwards curve, and the dual isogeny -/

theorem double_x (A : Edw d) : (A + A).x * (A.x ^ 2 + A.y ^ 2) = 2 * (A.x * A.y) := by
  have := add_x_mul A A
  linear_combination this + (A + A).x * A.on

theorem double_y (A : Edw d) : (A + A).y * (2 - A.x ^ 2 - A.y ^ 2) = A.y ^ 2 - A.x ^ 2 := by
  have := add_y_mul A A
  linear_combination this - (A + A).y * A.on

omit hd in
theorem four_x_aux {m s D E x4 x2 y2 X Y : K} (hs : s ≠ 0) (hD : D ≠ 0) (hE : E ≠ 0) (hx : x2 * s = m)
    (hy : y2 * E = -D) (hX : X * D = m) (hY : Y * E = s) (h : x4 * (x2 ^ 2 + y2 ^ 2) = 2 * (x2 * y2)) :
    x4 * (X ^ 2 + Y ^ 2) = -2 * (X * Y) := by
  have ex2 : x2 = m / s := by rw [eq_div_iff hs, hx]
  have ey2 : y2 = -D / E := by rw [eq_div_iff hE, hy]
  have eX : X = m / D := by rw [eq_div_iff hD, hX]
  have eY : Y = s / E := by rw [eq_div_iff hE, hY]
  rw [ex2, ey2] at h
  rw [eX, eY]
  field_simp at h ⊢
  linear_combination h

omit hd in
theorem four_y_aux {m s D E y4 x2 y2 X Y : K} (hs : s ≠ 0) (hD : D ≠ 0) (hE : E ≠ 0) (hx : x2 * s = m)
    (hy : y2 * E = -D) (hX : X * D = m) (hY : Y * E = s) (hD2 : D ^ 2 = s ^ 2 - m ^ 2)
    (h : y4 * (2 - x2 ^ 2 - y2 ^ 2) = y2 ^ 2 - x2 ^ 2) :
    y4 * (2 - Y ^ 2 + X ^ 2) = Y ^ 2 - X ^ 2 := by
  have ex2 : x2 = m / s := by rw [eq_div_iff hs, hx]
  have ey2 : y2 = -D / E := by rw [eq_div_iff hE, hy]
  have eX : X = m / D := by rw [eq_div_iff hD, hX]
  have eY : Y = s / E := by rw [eq_div_iff hE, hY]
  rw [ex2, ey2] at h
  rw [eX, eY]
  field_simp at h ⊢
  linear_combination h + 2 * y4 * E ^ 2 * hD2

theorem four_eq (A : Edw d) : 4 • A = (A + A) + (A + A) := by
  rw [← two_nsmul, ← two_nsmul, ← mul_nsmul]

/-- The dual isogeny after `phi` is multiplication by four: first coordinate. -/
theorem four_x (A : Edw d) : (4 • A).x * (A.phiX ^ 2 + A.phiY ^ 2) = -2 * (A.phiX * A.phiY) := by
  have h := double_x (A + A)
  rw [← four_eq] at h
  exact four_x_aux A.sum_sq_ne_zero A.phi_den_x A.phi_den_y (double_x A) (by rw [double_y]; ring) A.phiX_mul A.phiY_mul h

/-- The dual isogeny after `phi` is multiplication by four: second coordinate. -/
theorem four_y (A : Edw d) : (4 • A).y * (2 - A.phiY ^ 2 + A.phiX ^ 2) = A.phiY ^ 2 - A.phiX ^ 2 := by
  have h := double_y (A + A)
  rw [← four_eq] at h
  exact four_y_aux A.sum_sq_ne_zero A.phi_den_x A.phi_den_y (double_x A) (by rw [double_y]; ring) A.phiX_mul A.phiY_mul
    (by ring) h

/-! ### The kernel -/

theorem phiX_eq_zero_iff (A : Edw d) : A.phiX = 0 ↔ A.x = 0 ∨ A.y = 0 := by
  have h2 : (2 : K) ≠ 0 := hd.two_ne_zero
  have := A.phi_den_x
  rw [phiX, div_eq_zero_iff]
  simp [this, h2]

theorem four_eq_zero_iff (A : Edw d) : 4 • A = 0 ↔ A.phiX = 0 := by
  constructor
  · intro h
    have hx := four_x A
    rw [h, zero_x, zero_mul] at hx
    have h2 : (-2 : K) ≠ 0 := neg_ne_zero.mpr hd.two_ne_zero
    rcases mul_eq_zero.mp hx.symm with h' | h'
    · exact absurd h' h2
    · exact (mul_eq_zero.mp h').resolve_right A.phiY_ne_zero
  · intro h
    have hx := four_x A
    have hy := four_y A
    have on := A.phi_on
    rw [h] at hx hy on
    have hY := A.phiY_ne_zero
    have hY2 : A.phiY ^ 2 = 1 := by linear_combination on
    rw [hY2] at hx hy
    ext
    · simpa using hx
    · rw [zero_y]
      linear_combination hy

/-- The comparison of the code, `X₁ Y₂ = Y₁ X₂`, decides equality up to 4-torsion. -/
theorem cross_eq_iff (A B : Edw d) : A.phiX * B.phiY = A.phiY * B.phiX ↔ 4 • A = 4 • B := by
  have h := phiX_add A (-B)
  have hne := phi_den_pos A (-B)
  rw [phiX_neg, phiY_neg] at h
  rw [phiX_neg, phiY_neg] at hne
  rw [← sub_eq_zero (a := 4 • A), ← nsmul_sub, sub_eq_add_neg, four_eq_zero_iff]
  constructor
  · intro h0
    have : (A + -B).phiX * (1 + (d - 1) * A.phiX * -B.phiX * A.phiY * B.phiY) = 0 := by
      rw [h]; linear_combination h0
    exact (mul_eq_zero.mp this).resolve_right hne
  · intro h0
    rw [h0, zero_mul] at h
    linear_combination -h

end Edw
end Ed448
