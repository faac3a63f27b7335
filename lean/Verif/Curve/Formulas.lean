import Verif.Model.ExtendedPoint
import Verif.Field.MulW
import Verif.Field.Bytes
import Verif.Math.Order

/-!
# The point formulas of the code over the field

Every operation keeps its limbs bounded (`Red`) and computes the given polynomials of the coordinates.
-/

namespace Ed448

/-- All coordinates have bounded limbs. -/
structure Pt.Red (P : Pt) : Prop where
  x : P.x.Red
  y : P.y.Red
  z : P.z.Red
  t : P.t.Red

structure TwistedNiels.Red (n : TwistedNiels) : Prop where
  a : n.a.Red
  b : n.b.Red
  c : n.c.Red

structure PNiels.Red (pn : PNiels) : Prop where
  n : pn.n.Red
  z : pn.z.Red

theorem zero_red : Pt.zero.Red := ⟨red_zero, red_zero, red_zero, red_zero⟩
theorem identity_red : Pt.identity.Red := ⟨red_zero, red_one, red_one, red_zero⟩

theorem add_raw_mb {a b : BN} (ha : a.Red) (hb : b.Red) :
    (add_raw a b).toF = a.toF + b.toF ∧ (add_raw a b).Lt MB := add_raw_red ha hb

theorem sub3_spec {a b : BN} (ha : a.Red) (hb : b.Lt MB) :
    (sub_x_bias a b (@OfNat.ofNat (BitVec 32) 3 BitVec.instOfNat)).toF = a.toF - b.toF ∧
      (sub_x_bias a b (@OfNat.ofNat (BitVec 32) 3 BitVec.instOfNat)).Red :=
  sub_x_bias_spec (k := 3) ha hb (by simp) (by norm_num [MB]) (by norm_num [RB])

theorem sub4_spec {a b : BN} (ha : a.Lt MB) (hb : b.Red) :
    (sub_x_bias a b (@OfNat.ofNat (BitVec 32) 4 BitVec.instOfNat)).toF = a.toF - b.toF ∧
      (sub_x_bias a b (@OfNat.ofNat (BitVec 32) 4 BitVec.instOfNat)).Red :=
  sub_x_bias_spec (k := 4) ha hb (by simp) (by norm_num [RB]) (by norm_num [MB])

theorem double_internal_spec {P : Pt} (h : P.Red) (bd : Bool) :
    (P.double_internal bd).Red ∧
    (P.double_internal bd).x.toF = (2 * P.z.toF ^ 2 - (P.y.toF ^ 2 - P.x.toF ^ 2)) * (2 * (P.x.toF * P.y.toF)) ∧
    (P.double_internal bd).y.toF = (P.y.toF ^ 2 - P.x.toF ^ 2) * (P.x.toF ^ 2 + P.y.toF ^ 2) ∧
    (P.double_internal bd).z.toF = (P.y.toF ^ 2 - P.x.toF ^ 2) * (2 * P.z.toF ^ 2 - (P.y.toF ^ 2 - P.x.toF ^ 2)) ∧
    (bd = false → (P.double_internal bd).t.toF = 2 * (P.x.toF * P.y.toF) * (P.x.toF ^ 2 + P.y.toF ^ 2)) := by
  obtain ⟨hx, hy, hz, ht⟩ := h
  unfold Pt.double_internal
  simp only
  obtain ⟨c1, c2⟩ := square_spec hx.mb
  obtain ⟨a1, a2⟩ := square_spec hy.mb
  obtain ⟨d1, d2⟩ := add_raw_mb c2 a2
  obtain ⟨t1, t2⟩ := add_raw_mb hx hy
  obtain ⟨b1, b2⟩ := square_spec t2
  obtain ⟨b3, b4⟩ := sub3_spec b2 d2
  obtain ⟨t3, t4⟩ := sub_spec a2 c2
  obtain ⟨x1, x2⟩ := square_spec hz.mb
  obtain ⟨z1, z2⟩ := add_raw_mb x2 x2
  obtain ⟨a3, a4⟩ := sub4_spec z2 t4
  obtain ⟨x3, x4⟩ := mul_spec a4.mb b4.mb
  obtain ⟨z3, z4⟩ := mul_spec t4.mb a4.mb
  obtain ⟨y3, y4⟩ := mul_spec t4.mb d2
  obtain ⟨t5, t6⟩ := mul_spec b4.mb d2
  refine ⟨⟨x4, y4, z4, ?_⟩, ?_, ?_, ?_, ?_⟩
  · cases bd
    · exact t6
    · exact t4
  · rw [x3, a3, b3, z1, x1, t3, a1, c1, b1, t1, d1, a1, c1]; ring
  · rw [y3, t3, d1, a1, c1]; ring
  · rw [z3, a3, z1, x1, t3, a1, c1]; ring
  · rintro rfl
    show (mul _ _).toF = _
    rw [t5, b3, b1, t1, d1, a1, c1]; ring

theorem add_niels_spec {P : Pt} (h : P.Red) {n : TwistedNiels} (hn : n.Red) (bd : Bool) :
    (P.add_niels_to_extended n bd).Red ∧
    (P.add_niels_to_extended n bd).x.toF = (P.z.toF - n.c.toF * P.t.toF) *
      (n.b.toF * (P.x.toF + P.y.toF) - n.a.toF * (P.y.toF - P.x.toF)) ∧
    (P.add_niels_to_extended n bd).y.toF = (P.z.toF + n.c.toF * P.t.toF) *
      (n.b.toF * (P.x.toF + P.y.toF) + n.a.toF * (P.y.toF - P.x.toF)) ∧
    (P.add_niels_to_extended n bd).z.toF = (P.z.toF + n.c.toF * P.t.toF) * (P.z.toF - n.c.toF * P.t.toF) ∧
    (bd = false → (P.add_niels_to_extended n bd).t.toF =
      (n.b.toF * (P.x.toF + P.y.toF) - n.a.toF * (P.y.toF - P.x.toF)) *
      (n.b.toF * (P.x.toF + P.y.toF) + n.a.toF * (P.y.toF - P.x.toF))) := by
  obtain ⟨hx, hy, hz, ht⟩ := h
  obtain ⟨ha, hb, hc⟩ := hn
  unfold Pt.add_niels_to_extended
  simp only
  obtain ⟨b1, b2⟩ := sub_spec hy hx
  obtain ⟨a1, a2⟩ := mul_spec ha.mb b2.mb
  obtain ⟨b3, b4⟩ := add_raw_mb hx hy
  obtain ⟨y1, y2⟩ := mul_spec hb.mb b4
  obtain ⟨x1, x2⟩ := mul_spec hc.mb ht.mb
  obtain ⟨c1, c2⟩ := add_raw_mb a2 y2
  obtain ⟨b5, b6⟩ := sub_spec y2 a2
  obtain ⟨y3, y4⟩ := sub_spec hz x2
  obtain ⟨a3, a4⟩ := add_raw_mb x2 hz
  obtain ⟨z1, z2⟩ := mul_spec a4 y4.mb
  obtain ⟨x3, x4⟩ := mul_spec y4.mb b6.mb
  obtain ⟨y5, y6⟩ := mul_spec a4 c2
  obtain ⟨t1, t2⟩ := mul_spec b6.mb c2
  refine ⟨⟨x4, y6, z2, ?_⟩, ?_, ?_, ?_, ?_⟩
  · cases bd
    · exact t2
    · exact ht
  · rw [x3, y3, x1, b5, y1, b3, a1, b1]
  · rw [y5, a3, x1, c1, y1, b3, a1, b1]; ring
  · rw [z1, a3, y3, x1]; ring
  · rintro rfl
    show (mul _ _).toF = _
    rw [t1, b5, c1, y1, b3, a1, b1]; ring

theorem sub_niels_spec {P : Pt} (h : P.Red) {n : TwistedNiels} (hn : n.Red) (bd : Bool) :
    (P.sub_niels_from_extended_point n bd).Red ∧
    (P.sub_niels_from_extended_point n bd).x.toF = (P.z.toF - -n.c.toF * P.t.toF) *
      (n.a.toF * (P.x.toF + P.y.toF) - n.b.toF * (P.y.toF - P.x.toF)) ∧
    (P.sub_niels_from_extended_point n bd).y.toF = (P.z.toF + -n.c.toF * P.t.toF) *
      (n.a.toF * (P.x.toF + P.y.toF) + n.b.toF * (P.y.toF - P.x.toF)) ∧
    (P.sub_niels_from_extended_point n bd).z.toF = (P.z.toF + -n.c.toF * P.t.toF) * (P.z.toF - -n.c.toF * P.t.toF) ∧
    (bd = false → (P.sub_niels_from_extended_point n bd).t.toF =
      (n.a.toF * (P.x.toF + P.y.toF) - n.b.toF * (P.y.toF - P.x.toF)) *
      (n.a.toF * (P.x.toF + P.y.toF) + n.b.toF * (P.y.toF - P.x.toF))) := by
  obtain ⟨hx, hy, hz, ht⟩ := h
  obtain ⟨ha, hb, hc⟩ := hn
  unfold Pt.sub_niels_from_extended_point
  simp only
  obtain ⟨b1, b2⟩ := sub_spec hy hx
  obtain ⟨a1, a2⟩ := mul_spec hb.mb b2.mb
  obtain ⟨b3, b4⟩ := add_raw_mb hx hy
  obtain ⟨y1, y2⟩ := mul_spec ha.mb b4
  obtain ⟨x1, x2⟩ := mul_spec hc.mb ht.mb
  obtain ⟨c1, c2⟩ := add_raw_mb a2 y2
  obtain ⟨b5, b6⟩ := sub_spec y2 a2
  obtain ⟨y3, y4⟩ := add_raw_mb hz x2
  obtain ⟨a3, a4⟩ := sub_spec hz x2
  obtain ⟨z1, z2⟩ := mul_spec a4.mb y4
  obtain ⟨x3, x4⟩ := mul_spec y4 b6.mb
  obtain ⟨y5, y6⟩ := mul_spec a4.mb c2
  obtain ⟨t1, t2⟩ := mul_spec b6.mb c2
  refine ⟨⟨x4, y6, z2, ?_⟩, ?_, ?_, ?_, ?_⟩
  · cases bd
    · exact t2
    · exact ht
  · rw [x3, y3, x1, b5, y1, b3, a1, b1]; ring
  · rw [y5, a3, x1, c1, y1, b3, a1, b1]; ring
  · rw [z1, a3, y3, x1]; ring
  · rintro rfl
    show (mul _ _).toF = _
    rw [t1, b5, c1, y1, b3, a1, b1]; ring

theorem Pt.Red.setZ {P : Pt} (h : P.Red) {z : BN} (hz : z.Red) : Pt.Red { P with z := z } := ⟨h.x, h.y, hz, h.t⟩

/-- `to_projected_niels` never overflows. -/
theorem to_projected_niels_spec {P : Pt} (h : P.Red) : ∃ n, P.to_projected_niels = .ok n ∧ n.Red ∧
    n.n.a.toF = P.y.toF - P.x.toF ∧ n.n.b.toF = P.x.toF + P.y.toF ∧ n.n.c.toF = 2 * (edD - 1) * P.t.toF ∧
    n.z.toF = 2 * P.z.toF := by
  obtain ⟨a1, a2⟩ := sub_spec h.y h.x
  obtain ⟨b1, b2⟩ := add_spec h.x h.y
  obtain ⟨z1, z2⟩ := add_spec h.z h.z
  obtain ⟨r, c0, c1, c2⟩ := mul_signed_spec h.t (c := 78164) (by norm_num)
  refine ⟨⟨⟨sub P.y P.x, add P.x P.y, r⟩, add P.z P.z⟩, ?_, ⟨⟨a2, b2, c2⟩, z2⟩, a1, b1, ?_, ?_⟩
  · unfold Pt.to_projected_niels
    rw [show 2 * EDWARDS_D - 2 = -((78164 : ℕ) : ℤ) from rfl, c0]
    rfl
  · show r.toF = _
    rw [c1, edD]; norm_num
  · show (add P.z P.z).toF = _
    rw [z1]; ring

theorem to_extended_point_spec {n : PNiels} (h : n.Red) : n.to_extended_point.Red ∧
    n.to_extended_point.x.toF = n.z.toF * (n.n.b.toF - n.n.a.toF) ∧
    n.to_extended_point.y.toF = n.z.toF * (n.n.b.toF + n.n.a.toF) ∧
    n.to_extended_point.z.toF = n.z.toF ^ 2 ∧
    n.to_extended_point.t.toF = (n.n.b.toF - n.n.a.toF) * (n.n.b.toF + n.n.a.toF) := by
  unfold PNiels.to_extended_point
  simp only
  obtain ⟨e1, e2⟩ := add_spec h.n.b h.n.a
  obtain ⟨y1, y2⟩ := sub_spec h.n.b h.n.a
  obtain ⟨t1, t2⟩ := mul_spec y2.mb e2.mb
  obtain ⟨x1, x2⟩ := mul_spec h.z.mb y2.mb
  obtain ⟨y3, y4⟩ := mul_spec h.z.mb e2.mb
  obtain ⟨z1, z2⟩ := square_spec h.z.mb
  refine ⟨⟨x2, y4, z2, t2⟩, ?_, ?_, ?_, ?_⟩
  · rw [x1, y1]
  · rw [y3, e1]
  · rw [z1]; ring
  · rw [t1, y1, e1]

theorem niels_to_extended_spec {n : TwistedNiels} (h : n.Red) : n.to_extended.Red ∧
    n.to_extended.x.toF = n.b.toF - n.a.toF ∧
    n.to_extended.y.toF = n.b.toF + n.a.toF ∧
    n.to_extended.z.toF = 1 ∧
    n.to_extended.t.toF = (n.b.toF - n.a.toF) * (n.b.toF + n.a.toF) := by
  unfold TwistedNiels.to_extended
  simp only
  obtain ⟨y1, y2⟩ := add_spec h.b h.a
  obtain ⟨x1, x2⟩ := sub_spec h.b h.a
  obtain ⟨t1, t2⟩ := mul_spec y2.mb x2.mb
  refine ⟨⟨x2, y2, red_one, t2⟩, x1, y1, toF_one, ?_⟩
  rw [t1, y1, x1]; ring

theorem conditional_negate_niels (n : TwistedNiels) (b : Bool) :
    n.conditional_negate (maskOf b) = if b then ⟨n.b, n.a, neg n.c⟩ else n := by
  unfold TwistedNiels.conditional_negate
  simp only
  rw [conditional_swap_spec, conditional_negate_spec]
  cases b <;> rfl

theorem TwistedNiels.Red.conditional_negate {n : TwistedNiels} (h : n.Red) (b : Bool) :
    (n.conditional_negate (maskOf b)).Red := by
  rw [conditional_negate_niels]
  cases b
  · exact h
  · exact ⟨h.b, h.a, (neg_spec h.c).2⟩

end Ed448
