import Verif.Curve.Digits

/-!
# What the multiplication routines use about the point formulas

The routines are analysed for any relation between coordinates and elements of a commutative group that the
point formulas respect. There are two instances: representations of curve points, and, with the trivial group,
the mere bounds on limbs. The latter covers coordinates that do not lie on the curve.
-/

set_option exponentiation.threshold 1000

namespace Ed448

structure RepSys (G : Type) [AddCommGroup G] where
  rep : Pt → G → Prop
  repT : Pt → G → Prop
  pn : PNiels → G → Prop
  nn : TwistedNiels → G → Prop
  base : G
  weak : ∀ {P A}, repT P A → rep P A
  dbl : ∀ {P A} (bd : Bool), rep P A → rep (P.double_internal bd) (A + A) ∧ (bd = false → repT (P.double_internal bd) (A + A))
  addP : ∀ {P A n C} (bd : Bool), repT P A → pn n C → rep (P.add_projected_niels_to_extended n bd) (A + C) ∧
    (bd = false → repT (P.add_projected_niels_to_extended n bd) (A + C))
  subP : ∀ {P A n C} (bd : Bool), repT P A → pn n C → rep (P.sub_projected_niels_from_extended_point n bd) (A - C) ∧
    (bd = false → repT (P.sub_projected_niels_from_extended_point n bd) (A - C))
  addN : ∀ {P A n C} (bd : Bool), repT P A → nn n C → rep (P.add_niels_to_extended n bd) (A + C) ∧
    (bd = false → repT (P.add_niels_to_extended n bd) (A + C))
  subN : ∀ {P A n C} (bd : Bool), repT P A → nn n C → rep (P.sub_niels_from_extended_point n bd) (A - C) ∧
    (bd = false → repT (P.sub_niels_from_extended_point n bd) (A - C))
  toP : ∀ {P A}, repT P A → ∃ n, P.to_projected_niels = .ok n ∧ pn n A
  ofP : ∀ {n A}, pn n A → repT n.to_extended_point A
  ofN : ∀ {n A}, nn n A → repT n.to_extended A
  negP : ∀ {n A} (b : Bool), pn n A → pn { n with n := n.n.conditional_negate (maskOf b) } (if b then -A else A)
  ident : repT Pt.identity 0
  table : ∀ k (h : k < DECAF_WNAF_TABLE.length), nn DECAF_WNAF_TABLE[k] ((2 * k + 1) • base)

/-- Representations of curve points. -/
noncomputable def curveSys : RepSys E where
  rep := Rep
  repT := RepT
  pn := PNRep
  nn := NRep
  base := B
  weak := RepT.rep
  dbl bd h := double_rep h bd
  addP bd h hn := add_projected_rep h hn bd
  subP bd h hn := sub_projected_rep h hn bd
  addN bd h hn := add_niels_rep h hn bd
  subN bd h hn := sub_niels_rep h hn bd
  toP := to_projected_niels_rep
  ofP := to_extended_point_rep
  ofN := niels_to_extended_rep
  negP b h := by
    obtain ⟨h1, h2⟩ := conditional_negate_rep h.1.n h.2 b
    exact ⟨⟨h1, h.1.z⟩, h2⟩
  ident := identity_rep
  table := wnaf_table_rep

/-- Bounds on limbs only. -/
def redSys : RepSys PUnit where
  rep P _ := P.Red
  repT P _ := P.Red
  pn n _ := n.Red
  nn n _ := n.Red
  base := ⟨⟩
  weak h := h
  dbl bd h := ⟨(double_internal_spec h bd).1, fun _ => (double_internal_spec h bd).1⟩
  addP bd h hn := by
    have := (add_niels_spec (h.setZ (mul_spec h.z.mb hn.z.mb).2) hn.n bd).1
    exact ⟨this, fun _ => this⟩
  subP bd h hn := by
    have := (sub_niels_spec (h.setZ (mul_spec h.z.mb hn.z.mb).2) hn.n bd).1
    exact ⟨this, fun _ => this⟩
  addN bd h hn := ⟨(add_niels_spec h hn bd).1, fun _ => (add_niels_spec h hn bd).1⟩
  subN bd h hn := ⟨(sub_niels_spec h hn bd).1, fun _ => (sub_niels_spec h hn bd).1⟩
  toP h := by
    obtain ⟨n, h1, h2, _⟩ := to_projected_niels_spec h
    exact ⟨n, h1, h2⟩
  ofP h := (to_extended_point_spec h).1
  ofN h := (niels_to_extended_spec h).1
  negP b h := ⟨h.n.conditional_negate b, h.z⟩
  ident := identity_red
  table k h := (wnaf_table_rep k h).1

variable {G : Type} [AddCommGroup G] (S : RepSys G)

theorem RepSys.doubleTimes : ∀ (k : ℕ) {P : Pt} {A : G}, S.rep P A → S.rep (Pt.doubleTimes k P) ((2 : ℤ) ^ k • A)
  | 0, P, A, h => by rw [Pt.doubleTimes, pow_zero, one_smul]; exact h
  | k + 1, P, A, h => by
    have h2 := (S.dbl true (RepSys.doubleTimes k h)).1
    rw [Pt.doubleTimes, pow_succ', mul_smul, two_zsmul]
    exact h2

/-- Lists of consecutive odd multiples. -/
def RepSys.Odds (l : List PNiels) (A : G) : Prop := ∀ k (h : k < l.length), S.pn l[k] ((2 * (k : ℤ) + 1) • A)

end Ed448
