import Verif.Curve.Formulas
import Verif.Scalar.Bytes

/-!
# Which point of Ed448 a value of the code stands for

The code works on a 4-isogenous curve. `Rep P A` says that the projective coordinates of `P` are those of `φ(A)`, up to the sign of
both affine coordinates.
-/

set_option exponentiation.threshold 1000

namespace Ed448

/-- `P` represents `A`; the coordinate `t` is not constrained. -/
def Rep (P : Pt) (A : E) : Prop :=
  P.Red ∧ ∃ l e : F, l ≠ 0 ∧ e * e = 1 ∧ P.x.toF = l * A.phiX ∧ P.y.toF = l * A.phiY ∧ P.z.toF = e * l

/-- `P` represents `A`, with a valid coordinate `t`. -/
def RepT (P : Pt) (A : E) : Prop :=
  P.Red ∧ ∃ l e : F, l ≠ 0 ∧ e * e = 1 ∧ P.x.toF = l * A.phiX ∧ P.y.toF = l * A.phiY ∧ P.z.toF = e * l ∧
    P.t.toF = e * l * (A.phiX * A.phiY)

/-- The projective Niels coordinates (n, z) represent `A`. -/
def NRepF (a b c z : F) (A : E) : Prop :=
  ∃ m e : F, m ≠ 0 ∧ e * e = 1 ∧ 2 * a = m * (A.phiY - A.phiX) ∧ 2 * b = m * (A.phiY + A.phiX) ∧
    c = e * m * ((edD - 1) * (A.phiX * A.phiY)) ∧ z = e * m

def PNRep (n : PNiels) (A : E) : Prop := n.Red ∧ NRepF n.n.a.toF n.n.b.toF n.n.c.toF n.z.toF A

def NRep (n : TwistedNiels) (A : E) : Prop := n.Red ∧ NRepF n.a.toF n.b.toF n.c.toF 1 A

theorem RepT.rep {P : Pt} {A : E} (h : RepT P A) : Rep P A := by
  obtain ⟨h0, l, e, h1, h2, h3, h4, h5, _⟩ := h
  exact ⟨h0, l, e, h1, h2, h3, h4, h5⟩

theorem e_ne_zero {e : F} (h : e * e = 1) : e ≠ 0 := by
  rintro rfl
  rw [mul_zero] at h
  exact zero_ne_one h

theorem F_two_cancel {a b : F} (h : 2 * a = 2 * b) : a = b := mul_left_cancel₀ F_two_ne_zero h

theorem double_rep {P : Pt} {A : E} (h : Rep P A) (bd : Bool) :
    Rep (P.double_internal bd) (A + A) ∧ (bd = false → RepT (P.double_internal bd) (A + A)) := by
  obtain ⟨h0, l, e, h1, h2, hx, hy, hz⟩ := h
  obtain ⟨hr, dx, dy, dz, dt⟩ := double_internal_spec h0 bd
  have k1 := A.phiX_double
  have k2 := A.phiY_double
  have n1 := A.phi_double_den_x
  have n2 := A.phi_double_den_y
  simp only [hx, hy, hz] at dx dy dz dt
  unfold Rep RepT
  generalize (A + A).phiX = x3 at *
  generalize (A + A).phiY = y3 at *
  generalize A.phiX = x at *
  generalize A.phiY = y at *
  have hl : l ^ 4 * ((y ^ 2 - x ^ 2) * (2 - y ^ 2 + x ^ 2)) ≠ 0 :=
    mul_ne_zero (pow_ne_zero _ h1) (mul_ne_zero n1 n2)
  have e1 : (P.double_internal bd).x.toF = l ^ 4 * ((y ^ 2 - x ^ 2) * (2 - y ^ 2 + x ^ 2)) * x3 := by
    rw [dx]; linear_combination (-l ^ 4 * (2 - y ^ 2 + x ^ 2)) * k1 + 4 * l ^ 4 * x * y * h2
  have e2 : (P.double_internal bd).y.toF = l ^ 4 * ((y ^ 2 - x ^ 2) * (2 - y ^ 2 + x ^ 2)) * y3 := by
    rw [dy]; linear_combination (-l ^ 4 * (y ^ 2 - x ^ 2)) * k2
  have e3 : (P.double_internal bd).z.toF = 1 * (l ^ 4 * ((y ^ 2 - x ^ 2) * (2 - y ^ 2 + x ^ 2))) := by
    rw [dz]; linear_combination 2 * l ^ 4 * (y ^ 2 - x ^ 2) * h2
  refine ⟨⟨hr, _, 1, hl, by ring, e1, e2, e3⟩, fun hb => ⟨hr, _, 1, hl, by ring, e1, e2, e3, ?_⟩⟩
  rw [dt hb]
  linear_combination (-l ^ 4 * (2 - y ^ 2 + x ^ 2) * y3) * k1 - 2 * l ^ 4 * x * y * k2

theorem add_alg {K : Type} [Field K] (h20 : (2 : K) ≠ 0) {qx qy qz qt l e m f x1 y1 x2 y2 x3 y3 d a b : K} {bd : Bool}
    (h1 : l ≠ 0) (h2 : e * e = 1) (g1 : m ≠ 0) (g2 : f * f = 1)
    (ga : 2 * a = m * (y2 - x2)) (gb : 2 * b = m * (y2 + x2))
    (k1 : x3 * (1 + d * x1 * x2 * y1 * y2) = x1 * y2 + y1 * x2) (k2 : y3 * (1 - d * x1 * x2 * y1 * y2) = y1 * y2 + x1 * x2)
    (n1 : 1 + d * x1 * x2 * y1 * y2 ≠ 0) (n2 : 1 - d * x1 * x2 * y1 * y2 ≠ 0)
    (dx : qx = (e * l * (f * m) - f * m * (d * (x2 * y2)) * (e * l * (x1 * y1))) * (b * (l * x1 + l * y1) - a * (l * y1 - l * x1)))
    (dy : qy = (e * l * (f * m) + f * m * (d * (x2 * y2)) * (e * l * (x1 * y1))) * (b * (l * x1 + l * y1) + a * (l * y1 - l * x1)))
    (dz : qz = (e * l * (f * m) + f * m * (d * (x2 * y2)) * (e * l * (x1 * y1))) *
      (e * l * (f * m) - f * m * (d * (x2 * y2)) * (e * l * (x1 * y1))))
    (dt : bd = false → qt = (b * (l * x1 + l * y1) - a * (l * y1 - l * x1)) * (b * (l * x1 + l * y1) + a * (l * y1 - l * x1))) :
    ∃ l' e' : K, l' ≠ 0 ∧ e' * e' = 1 ∧ qx = l' * x3 ∧ qy = l' * y3 ∧ qz = e' * l' ∧ (bd = false → qt = e' * l' * (x3 * y3)) := by
  have eb : b * (l * x1 + l * y1) - a * (l * y1 - l * x1) = l * m * (x3 * (1 + d * x1 * x2 * y1 * y2)) := by
    apply mul_left_cancel₀ h20
    rw [k1]
    linear_combination (l * x1 + l * y1) * gb - (l * y1 - l * x1) * ga
  have ec : b * (l * x1 + l * y1) + a * (l * y1 - l * x1) = l * m * (y3 * (1 - d * x1 * x2 * y1 * y2)) := by
    apply mul_left_cancel₀ h20
    rw [k2]
    linear_combination (l * x1 + l * y1) * gb + (l * y1 - l * x1) * ga
  rw [eb] at dx dt
  rw [ec] at dy dt
  have hef : (e * f) * (e * f) = 1 := by linear_combination f ^ 2 * h2 + g2
  have hef0 : e * f ≠ 0 := by
    intro h
    rw [h, mul_zero] at hef
    exact zero_ne_one hef
  refine ⟨(e * f) * (l * m) ^ 2 * ((1 + d * x1 * x2 * y1 * y2) * (1 - d * x1 * x2 * y1 * y2)), e * f,
    mul_ne_zero (mul_ne_zero hef0 (pow_ne_zero _ (mul_ne_zero h1 g1))) (mul_ne_zero n1 n2), hef, ?_, ?_, ?_, ?_⟩
  · rw [dx]; ring
  · rw [dy]; ring
  · rw [dz]; ring
  · intro hb
    rw [dt hb]
    linear_combination (-(l * m) ^ 2 * x3 * y3 * (1 + d * x1 * x2 * y1 * y2) * (1 - d * x1 * x2 * y1 * y2)) * hef

/-- The common part of the addition formulas. `(X, Y, Z, T)` are the coordinates after the multiplication of `z`. -/
theorem add_core {Q : Pt} (hr : Q.Red) {A C : E} {X Y Z T a b c z : F} {bd : Bool}
    (hP : ∃ l e : F, l ≠ 0 ∧ e * e = 1 ∧ X = l * A.phiX ∧ Y = l * A.phiY ∧ Z = e * l ∧ T = e * l * (A.phiX * A.phiY))
    (hN : NRepF a b c z C)
    (dx : Q.x.toF = (Z * z - c * T) * (b * (X + Y) - a * (Y - X)))
    (dy : Q.y.toF = (Z * z + c * T) * (b * (X + Y) + a * (Y - X)))
    (dz : Q.z.toF = (Z * z + c * T) * (Z * z - c * T))
    (dt : bd = false → Q.t.toF = (b * (X + Y) - a * (Y - X)) * (b * (X + Y) + a * (Y - X))) :
    Rep Q (A + C) ∧ (bd = false → RepT Q (A + C)) := by
  obtain ⟨l, e, h1, h2, rfl, rfl, rfl, rfl⟩ := hP
  obtain ⟨m, f, g1, g2, ga, gb, rfl, rfl⟩ := hN
  obtain ⟨l', e', r1, r2, r3, r4, r5, r6⟩ := add_alg F_two_ne_zero h1 h2 g1 g2 ga gb (A.phiX_add C) (A.phiY_add C)
    (A.phi_den_pos C) (A.phi_den_neg C) dx dy dz dt
  exact ⟨⟨hr, l', e', r1, r2, r3, r4, r5⟩, fun hb => ⟨hr, l', e', r1, r2, r3, r4, r5, r6 hb⟩⟩

theorem RepT.coords {P : Pt} {A : E} (h : RepT P A) : ∃ l e : F, l ≠ 0 ∧ e * e = 1 ∧ P.x.toF = l * A.phiX ∧
    P.y.toF = l * A.phiY ∧ P.z.toF = e * l ∧ P.t.toF = e * l * (A.phiX * A.phiY) := h.2

theorem NRepF.neg {a b c z : F} {A : E} (h : NRepF a b c z A) : NRepF b a (-c) z (-A) := by
  obtain ⟨m, e, h1, h2, ha, hb, hc, hz⟩ := h
  refine ⟨m, e, h1, h2, ?_, ?_, ?_, hz⟩
  · rw [hb, Edw.phiX_neg, Edw.phiY_neg]; ring
  · rw [ha, Edw.phiX_neg, Edw.phiY_neg]; ring
  · rw [hc, Edw.phiX_neg, Edw.phiY_neg]; ring

theorem add_niels_rep {P : Pt} {A C : E} {n : TwistedNiels} (h : RepT P A) (hn : NRep n C) (bd : Bool) :
    Rep (P.add_niels_to_extended n bd) (A + C) ∧ (bd = false → RepT (P.add_niels_to_extended n bd) (A + C)) := by
  obtain ⟨hr, dx, dy, dz, dt⟩ := add_niels_spec h.1 hn.1 bd
  exact add_core hr h.coords hn.2 (by rw [dx]; ring) (by rw [dy]; ring) (by rw [dz]; ring) dt

theorem sub_niels_rep {P : Pt} {A C : E} {n : TwistedNiels} (h : RepT P A) (hn : NRep n C) (bd : Bool) :
    Rep (P.sub_niels_from_extended_point n bd) (A - C) ∧
      (bd = false → RepT (P.sub_niels_from_extended_point n bd) (A - C)) := by
  obtain ⟨hr, dx, dy, dz, dt⟩ := sub_niels_spec h.1 hn.1 bd
  rw [sub_eq_add_neg]
  exact add_core hr h.coords hn.2.neg (by rw [dx]; ring) (by rw [dy]; ring) (by rw [dz]; ring) dt

theorem add_projected_rep {P : Pt} {A C : E} {n : PNiels} (h : RepT P A) (hn : PNRep n C) (bd : Bool) :
    Rep (P.add_projected_niels_to_extended n bd) (A + C) ∧
      (bd = false → RepT (P.add_projected_niels_to_extended n bd) (A + C)) := by
  obtain ⟨m1, m2⟩ := mul_spec h.1.z.mb hn.1.z.mb
  obtain ⟨hr, dx, dy, dz, dt⟩ := add_niels_spec (h.1.setZ m2) hn.1.n bd
  simp only [m1] at dx dy dz
  exact add_core hr h.coords hn.2 dx dy dz dt

theorem sub_projected_rep {P : Pt} {A C : E} {n : PNiels} (h : RepT P A) (hn : PNRep n C) (bd : Bool) :
    Rep (P.sub_projected_niels_from_extended_point n bd) (A - C) ∧
      (bd = false → RepT (P.sub_projected_niels_from_extended_point n bd) (A - C)) := by
  obtain ⟨m1, m2⟩ := mul_spec h.1.z.mb hn.1.z.mb
  obtain ⟨hr, dx, dy, dz, dt⟩ := sub_niels_spec (h.1.setZ m2) hn.1.n bd
  simp only [m1] at dx dy dz
  rw [sub_eq_add_neg]
  exact add_core hr h.coords hn.2.neg dx dy dz dt

theorem to_projected_niels_rep {P : Pt} {A : E} (h : RepT P A) : ∃ n, P.to_projected_niels = .ok n ∧ PNRep n A := by
  obtain ⟨n, h1, h2, ha, hb, hc, hz⟩ := to_projected_niels_spec h.1
  obtain ⟨l, e, g1, g2, gx, gy, gz, gt⟩ := h.coords
  refine ⟨n, h1, h2, 2 * l, e, mul_ne_zero F_two_ne_zero g1, g2, ?_, ?_, ?_, ?_⟩
  · rw [ha, gx, gy]; ring
  · rw [hb, gx, gy]; ring
  · rw [hc, gt]; ring
  · rw [hz, gz]; ring

theorem to_extended_point_rep {n : PNiels} {A : E} (h : PNRep n A) : RepT n.to_extended_point A := by
  obtain ⟨hr, dx, dy, dz, dt⟩ := to_extended_point_spec h.1
  obtain ⟨_, m, e, h1, h2, ha, hb, hc, hz⟩ := h
  have s1 : n.n.b.toF - n.n.a.toF = m * A.phiX := by apply F_two_cancel; linear_combination hb - ha
  have s2 : n.n.b.toF + n.n.a.toF = m * A.phiY := by apply F_two_cancel; linear_combination hb + ha
  rw [s1, hz] at dx
  rw [s2, hz] at dy
  rw [hz] at dz
  rw [s1, s2] at dt
  refine ⟨hr, e * m ^ 2, e, mul_ne_zero (e_ne_zero h2) (pow_ne_zero _ h1), h2, ?_, ?_, ?_, ?_⟩
  · rw [dx]; ring
  · rw [dy]; ring
  · rw [dz]; ring
  · rw [dt]; linear_combination (-m ^ 2 * A.phiX * A.phiY) * h2

theorem niels_to_extended_rep {n : TwistedNiels} {A : E} (h : NRep n A) : RepT n.to_extended A := by
  obtain ⟨hr, dx, dy, dz, dt⟩ := niels_to_extended_spec h.1
  obtain ⟨_, m, e, h1, h2, ha, hb, hc, hz⟩ := h
  have s1 : n.b.toF - n.a.toF = m * A.phiX := by apply F_two_cancel; linear_combination hb - ha
  have s2 : n.b.toF + n.a.toF = m * A.phiY := by apply F_two_cancel; linear_combination hb + ha
  refine ⟨hr, m, e, h1, h2, ?_, ?_, ?_, ?_⟩
  · rw [dx, s1]
  · rw [dy, s2]
  · rw [dz, hz]
  · have hm : m * m = 1 := by linear_combination (1 + e * m) * (-hz) - m ^ 2 * h2
    rw [dt, s1, s2, ← hz]; linear_combination A.phiX * A.phiY * hm

theorem conditional_negate_rep {n : TwistedNiels} {z : F} {A : E} (h : n.Red) (hn : NRepF n.a.toF n.b.toF n.c.toF z A) (b : Bool) :
    (n.conditional_negate (maskOf b)).Red ∧
    NRepF (n.conditional_negate (maskOf b)).a.toF (n.conditional_negate (maskOf b)).b.toF
      (n.conditional_negate (maskOf b)).c.toF z (if b then -A else A) := by
  refine ⟨h.conditional_negate b, ?_⟩
  rw [conditional_negate_niels]
  cases b
  · exact hn
  · have := hn.neg
    rw [← (neg_spec h.c).1] at this
    exact this

theorem identity_rep : RepT Pt.identity 0 :=
  ⟨identity_red, 1, 1, one_ne_zero, by ring, by simp [Pt.identity], by simp [Pt.identity], by simp [Pt.identity],
    by simp [Pt.identity]⟩

theorem doubleTimes_rep : ∀ (k : ℕ) {P : Pt} {A : E}, Rep P A → Rep (Pt.doubleTimes k P) (2 ^ k • A)
  | 0, P, A, h => by rw [Pt.doubleTimes, pow_zero, one_nsmul]; exact h
  | k + 1, P, A, h => by
    have h2 := (double_rep (doubleTimes_rep k h) true).1
    rw [Pt.doubleTimes, pow_succ', mul_nsmul', two_nsmul]
    exact h2

/-! ## Encoding and comparison -/

theorem invert_inv {x : BN} (hx : x.Red) : (invert x).toF = x.toF⁻¹ ∧ (invert x).Red := by
  obtain ⟨h1, h2⟩ := invert_spec hx
  refine ⟨?_, h2⟩
  rw [h1]
  by_cases h0 : x.toF = 0
  · rw [h0, inv_zero, zero_pow]
    have := fact_p_prime.out.two_le
    rw [p_def]
    decide +kernel
  · apply eq_inv_of_mul_eq_one_left
    rw [← pow_succ]
    have h3 : p - 2 + 1 = p - 1 := by
      rw [p_def]; decide +kernel
    rw [h3]
    exact ZMod.pow_card_sub_one_eq_one h0

theorem signByte (b : Bool) : ((@OfNat.ofNat (BitVec 32) 0x80 BitVec.instOfNat) &&& maskOf b).setWidth 8 =
    BitVec.ofNat 8 (128 * (if b then 1 else 0)) := by
  cases b <;> rfl

theorem encodePoint_split (A : E) : encodePoint A =
    leBytes 56 A.y.val ++ [BitVec.ofNat 8 (128 * (if A.x.val % 2 == 1 then 1 else 0))] := by
  have h1 := ZMod.val_lt A.y
  have h2 := p_lt
  unfold encodePoint
  rw [show 57 = 56 + 1 from rfl, leBytes_append, ← leBytes_mod 56 (_ + _)]
  have e1 : (A.y.val + 2 ^ 455 * (A.x.val % 2)) % 256 ^ 56 = A.y.val := by omega
  have e2 : (A.y.val + 2 ^ 455 * (A.x.val % 2)) / 256 ^ 56 = 128 * (A.x.val % 2) := by omega
  rw [e1, e2]
  rcases Nat.mod_two_eq_zero_or_one A.x.val with h | h <;> rw [h] <;> rfl

theorem encode_coords {P : Pt} (h : P.Red) : (P.eddsa_like_encode).1 =
    leBytes 56 ((P.y.toF ^ 2 - P.x.toF ^ 2) * (P.x.toF ^ 2 + P.y.toF ^ 2) *
      ((P.x.toF ^ 2 + P.y.toF ^ 2) * (2 * P.z.toF ^ 2 - (P.y.toF ^ 2 - P.x.toF ^ 2)))⁻¹).val ++
    [BitVec.ofNat 8 (128 * (if ((2 * P.z.toF ^ 2 - (P.y.toF ^ 2 - P.x.toF ^ 2)) * (-2 * (P.x.toF * P.y.toF)) *
      ((P.x.toF ^ 2 + P.y.toF ^ 2) * (2 * P.z.toF ^ 2 - (P.y.toF ^ 2 - P.x.toF ^ 2)))⁻¹).val % 2 == 1 then 1 else 0))] := by
  obtain ⟨hx, hy, hz, ht⟩ := h
  obtain ⟨x1, x2⟩ := square_spec hx.mb
  obtain ⟨t1, t2⟩ := square_spec hy.mb
  obtain ⟨u1, u2⟩ := add_spec x2 t2
  obtain ⟨z1, z2⟩ := add_spec hy hx
  obtain ⟨y1, y2⟩ := square_spec z2.mb
  obtain ⟨y3, y4⟩ := sub_spec u2 y2
  obtain ⟨z3, z4⟩ := sub_spec t2 x2
  obtain ⟨x3, x4⟩ := square_spec hz.mb
  obtain ⟨t3, t4⟩ := add_spec x4 x4
  obtain ⟨t5, t6⟩ := sub_spec t4 z4
  obtain ⟨x5, x6⟩ := mul_spec t6.mb y4.mb
  obtain ⟨y5, y6⟩ := mul_spec z4.mb u2.mb
  obtain ⟨z5, z6⟩ := mul_spec u2.mb t6.mb
  obtain ⟨z7, z8⟩ := invert_inv z6
  obtain ⟨t7, t8⟩ := mul_spec x6.mb z8.mb
  obtain ⟨x7, x8⟩ := mul_spec y6.mb z8.mb
  have hser := dsa_like_serialize_spec x8.l8
  have hlow := low_bit_spec t8.l8
  rw [t7, x5, z7, z5, t5, t3, x3, z3, t1, x1, u1, x1, t1, y3, u1, x1, t1, y1, z1] at hlow
  rw [x7, y5, z7, z5, t5, t3, x3, z3, t1, x1, u1, x1, t1] at hser
  unfold Pt.eddsa_like_encode
  simp only
  rw [hser, hlow, signByte]
  have e1 : P.y.toF ^ 2 - P.x.toF ^ 2 = P.y.toF * P.y.toF - P.x.toF * P.x.toF := by ring
  have e2 : P.x.toF ^ 2 + P.y.toF ^ 2 = P.x.toF * P.x.toF + P.y.toF * P.y.toF := by ring
  have e3 : 2 * P.z.toF ^ 2 = P.z.toF * P.z.toF + P.z.toF * P.z.toF := by ring
  have e4 : -2 * (P.x.toF * P.y.toF) = P.x.toF * P.x.toF + P.y.toF * P.y.toF -
    (P.y.toF + P.x.toF) * (P.y.toF + P.x.toF) := by ring
  rw [e1, e2, e3, e4]

/-- `eddsa_like_encode` applies the dual isogeny: the encoding of four times the point. -/
theorem encode_rep {P : Pt} {A : E} (h : Rep P A) : (P.eddsa_like_encode).1 = encodePoint (4 • A) := by
  obtain ⟨h0, l, e, h1, h2, hx, hy, hz⟩ := h
  rw [encode_coords h0, encodePoint_split, hx, hy, hz]
  have k1 := A.four_x
  have k2 := A.four_y
  have n1 := A.phi_sum_sq_ne_zero
  have n2 := A.phi_double_den_y
  generalize (4 • A).x = x4 at *
  generalize (4 • A).y = y4 at *
  generalize A.phiX = x at *
  generalize A.phiY = y at *
  have d1 : ((l * x) ^ 2 + (l * y) ^ 2) * (2 * (e * l) ^ 2 - ((l * y) ^ 2 - (l * x) ^ 2)) =
      l ^ 4 * ((x ^ 2 + y ^ 2) * (2 - y ^ 2 + x ^ 2)) := by
    linear_combination 2 * l ^ 4 * (x ^ 2 + y ^ 2) * h2
  have hne : l ^ 4 * ((x ^ 2 + y ^ 2) * (2 - y ^ 2 + x ^ 2)) ≠ 0 :=
    mul_ne_zero (pow_ne_zero _ h1) (mul_ne_zero n1 n2)
  have e1 : ((l * y) ^ 2 - (l * x) ^ 2) * ((l * x) ^ 2 + (l * y) ^ 2) *
      (l ^ 4 * ((x ^ 2 + y ^ 2) * (2 - y ^ 2 + x ^ 2)))⁻¹ = y4 := by
    rw [mul_inv_eq_iff_eq_mul₀ hne]
    linear_combination (-l ^ 4 * (x ^ 2 + y ^ 2)) * k2
  have e2 : (2 * (e * l) ^ 2 - ((l * y) ^ 2 - (l * x) ^ 2)) * (-2 * (l * x * (l * y))) *
      (l ^ 4 * ((x ^ 2 + y ^ 2) * (2 - y ^ 2 + x ^ 2)))⁻¹ = x4 := by
    rw [mul_inv_eq_iff_eq_mul₀ hne]
    linear_combination (-l ^ 4 * (2 - y ^ 2 + x ^ 2)) * k1 - 4 * l ^ 4 * x * y * h2
  rw [d1, e1, e2]

/-- `mod_equal` compares all bits but the highest 28 of the difference of the cross products. -/
theorem mod_equal_spec {P Q : Pt} (hP : P.Red) (hQ : Q.Red) :
    P.mod_equal Q = ((P.y.toF * Q.x.toF - P.x.toF * Q.y.toF).val % 2 ^ 420 == 0) := by
  obtain ⟨a1, a2⟩ := mul_spec hP.y.mb hQ.x.mb
  obtain ⟨b1, b2⟩ := mul_spec hP.x.mb hQ.y.mb
  unfold Pt.mod_equal
  simp only
  rw [decaf_equal_spec a2 b2, a1, b1]
  cases ((P.y.toF * Q.x.toF - P.x.toF * Q.y.toF).val % 2 ^ 420 == 0) <;> rfl

/-- Points whose fourfold is the same are equal for `mod_equal`. -/
theorem mod_equal_rep {P Q : Pt} {A C : E} (hP : Rep P A) (hQ : Rep Q C) :
    P.y.toF * Q.x.toF - P.x.toF * Q.y.toF = 0 ↔ 4 • A = 4 • C := by
  obtain ⟨_, l, e, h1, h2, hx, hy, _⟩ := hP
  obtain ⟨_, m, f, g1, g2, gx, gy, _⟩ := hQ
  rw [← Edw.cross_eq_iff, hx, hy, gx, gy]
  constructor
  · intro h
    have h3 : (l * m) * (A.phiX * C.phiY - A.phiY * C.phiX) = 0 := by linear_combination -h
    exact sub_eq_zero.mp ((mul_eq_zero.mp h3).resolve_left (mul_ne_zero h1 g1))
  · intro h
    linear_combination (-l * m) * h

end Ed448
