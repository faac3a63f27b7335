import Verif.Model.BigNumber
import Verif.Field.Words
import Mathlib.Tactic.Ring

/-!
# The accumulators of the Karatsuba multiplication are sums of products

Generated by tools/gen_kar.py. `mulLo i`, `mulHi i` are limbs `i` and `i + 8` of the product before carrying.
-/

set_option linter.unusedSimpArgs false

namespace Ed448

/-- Sum of products for limb 0 of the product. -/
def mulLo0 (a b : BN) : ℕ :=
    a.l0.toNat * b.l0.toNat + a.l8.toNat * b.l8.toNat + a.l1.toNat * b.l15.toNat + a.l9.toNat * b.l7.toNat +
    a.l9.toNat * b.l15.toNat + a.l2.toNat * b.l14.toNat + a.l10.toNat * b.l6.toNat +
    a.l10.toNat * b.l14.toNat + a.l3.toNat * b.l13.toNat + a.l11.toNat * b.l5.toNat +
    a.l11.toNat * b.l13.toNat + a.l4.toNat * b.l12.toNat + a.l12.toNat * b.l4.toNat +
    a.l12.toNat * b.l12.toNat + a.l5.toNat * b.l11.toNat + a.l13.toNat * b.l3.toNat +
    a.l13.toNat * b.l11.toNat + a.l6.toNat * b.l10.toNat + a.l14.toNat * b.l2.toNat +
    a.l14.toNat * b.l10.toNat + a.l7.toNat * b.l9.toNat + a.l15.toNat * b.l1.toNat + a.l15.toNat * b.l9.toNat

/-- Sum of products for limb 8 of the product. -/
def mulHi0 (a b : BN) : ℕ :=
    a.l0.toNat * b.l8.toNat + a.l8.toNat * b.l0.toNat + a.l8.toNat * b.l8.toNat + a.l1.toNat * b.l7.toNat +
    a.l9.toNat * b.l15.toNat + a.l1.toNat * b.l15.toNat + a.l9.toNat * b.l7.toNat +
    a.l9.toNat * b.l15.toNat + a.l2.toNat * b.l6.toNat + a.l10.toNat * b.l14.toNat +
    a.l2.toNat * b.l14.toNat + a.l10.toNat * b.l6.toNat + a.l10.toNat * b.l14.toNat +
    a.l3.toNat * b.l5.toNat + a.l11.toNat * b.l13.toNat + a.l3.toNat * b.l13.toNat +
    a.l11.toNat * b.l5.toNat + a.l11.toNat * b.l13.toNat + a.l4.toNat * b.l4.toNat +
    a.l12.toNat * b.l12.toNat + a.l4.toNat * b.l12.toNat + a.l12.toNat * b.l4.toNat +
    a.l12.toNat * b.l12.toNat + a.l5.toNat * b.l3.toNat + a.l13.toNat * b.l11.toNat +
    a.l5.toNat * b.l11.toNat + a.l13.toNat * b.l3.toNat + a.l13.toNat * b.l11.toNat +
    a.l6.toNat * b.l2.toNat + a.l14.toNat * b.l10.toNat + a.l6.toNat * b.l10.toNat +
    a.l14.toNat * b.l2.toNat + a.l14.toNat * b.l10.toNat + a.l7.toNat * b.l1.toNat +
    a.l15.toNat * b.l9.toNat + a.l7.toNat * b.l9.toNat + a.l15.toNat * b.l1.toNat + a.l15.toNat * b.l9.toNat

/-- Sum of products for limb 1 of the product. -/
def mulLo1 (a b : BN) : ℕ :=
    a.l0.toNat * b.l1.toNat + a.l8.toNat * b.l9.toNat + a.l1.toNat * b.l0.toNat + a.l9.toNat * b.l8.toNat +
    a.l2.toNat * b.l15.toNat + a.l10.toNat * b.l7.toNat + a.l10.toNat * b.l15.toNat +
    a.l3.toNat * b.l14.toNat + a.l11.toNat * b.l6.toNat + a.l11.toNat * b.l14.toNat +
    a.l4.toNat * b.l13.toNat + a.l12.toNat * b.l5.toNat + a.l12.toNat * b.l13.toNat +
    a.l5.toNat * b.l12.toNat + a.l13.toNat * b.l4.toNat + a.l13.toNat * b.l12.toNat +
    a.l6.toNat * b.l11.toNat + a.l14.toNat * b.l3.toNat + a.l14.toNat * b.l11.toNat +
    a.l7.toNat * b.l10.toNat + a.l15.toNat * b.l2.toNat + a.l15.toNat * b.l10.toNat

/-- Sum of products for limb 9 of the product. -/
def mulHi1 (a b : BN) : ℕ :=
    a.l0.toNat * b.l9.toNat + a.l8.toNat * b.l1.toNat + a.l8.toNat * b.l9.toNat + a.l1.toNat * b.l8.toNat +
    a.l9.toNat * b.l0.toNat + a.l9.toNat * b.l8.toNat + a.l2.toNat * b.l7.toNat + a.l10.toNat * b.l15.toNat +
    a.l2.toNat * b.l15.toNat + a.l10.toNat * b.l7.toNat + a.l10.toNat * b.l15.toNat +
    a.l3.toNat * b.l6.toNat + a.l11.toNat * b.l14.toNat + a.l3.toNat * b.l14.toNat +
    a.l11.toNat * b.l6.toNat + a.l11.toNat * b.l14.toNat + a.l4.toNat * b.l5.toNat +
    a.l12.toNat * b.l13.toNat + a.l4.toNat * b.l13.toNat + a.l12.toNat * b.l5.toNat +
    a.l12.toNat * b.l13.toNat + a.l5.toNat * b.l4.toNat + a.l13.toNat * b.l12.toNat +
    a.l5.toNat * b.l12.toNat + a.l13.toNat * b.l4.toNat + a.l13.toNat * b.l12.toNat +
    a.l6.toNat * b.l3.toNat + a.l14.toNat * b.l11.toNat + a.l6.toNat * b.l11.toNat +
    a.l14.toNat * b.l3.toNat + a.l14.toNat * b.l11.toNat + a.l7.toNat * b.l2.toNat +
    a.l15.toNat * b.l10.toNat + a.l7.toNat * b.l10.toNat + a.l15.toNat * b.l2.toNat +
    a.l15.toNat * b.l10.toNat

/-- Sum of products for limb 2 of the product. -/
def mulLo2 (a b : BN) : ℕ :=
    a.l0.toNat * b.l2.toNat + a.l8.toNat * b.l10.toNat + a.l1.toNat * b.l1.toNat + a.l9.toNat * b.l9.toNat +
    a.l2.toNat * b.l0.toNat + a.l10.toNat * b.l8.toNat + a.l3.toNat * b.l15.toNat +
    a.l11.toNat * b.l7.toNat + a.l11.toNat * b.l15.toNat + a.l4.toNat * b.l14.toNat +
    a.l12.toNat * b.l6.toNat + a.l12.toNat * b.l14.toNat + a.l5.toNat * b.l13.toNat +
    a.l13.toNat * b.l5.toNat + a.l13.toNat * b.l13.toNat + a.l6.toNat * b.l12.toNat +
    a.l14.toNat * b.l4.toNat + a.l14.toNat * b.l12.toNat + a.l7.toNat * b.l11.toNat +
    a.l15.toNat * b.l3.toNat + a.l15.toNat * b.l11.toNat

/-- Sum of products for limb 10 of the product. -/
def mulHi2 (a b : BN) : ℕ :=
    a.l0.toNat * b.l10.toNat + a.l8.toNat * b.l2.toNat + a.l8.toNat * b.l10.toNat + a.l1.toNat * b.l9.toNat +
    a.l9.toNat * b.l1.toNat + a.l9.toNat * b.l9.toNat + a.l2.toNat * b.l8.toNat + a.l10.toNat * b.l0.toNat +
    a.l10.toNat * b.l8.toNat + a.l3.toNat * b.l7.toNat + a.l11.toNat * b.l15.toNat +
    a.l3.toNat * b.l15.toNat + a.l11.toNat * b.l7.toNat + a.l11.toNat * b.l15.toNat +
    a.l4.toNat * b.l6.toNat + a.l12.toNat * b.l14.toNat + a.l4.toNat * b.l14.toNat +
    a.l12.toNat * b.l6.toNat + a.l12.toNat * b.l14.toNat + a.l5.toNat * b.l5.toNat +
    a.l13.toNat * b.l13.toNat + a.l5.toNat * b.l13.toNat + a.l13.toNat * b.l5.toNat +
    a.l13.toNat * b.l13.toNat + a.l6.toNat * b.l4.toNat + a.l14.toNat * b.l12.toNat +
    a.l6.toNat * b.l12.toNat + a.l14.toNat * b.l4.toNat + a.l14.toNat * b.l12.toNat +
    a.l7.toNat * b.l3.toNat + a.l15.toNat * b.l11.toNat + a.l7.toNat * b.l11.toNat +
    a.l15.toNat * b.l3.toNat + a.l15.toNat * b.l11.toNat

/-- Sum of products for limb 3 of the product. -/
def mulLo3 (a b : BN) : ℕ :=
    a.l0.toNat * b.l3.toNat + a.l8.toNat * b.l11.toNat + a.l1.toNat * b.l2.toNat + a.l9.toNat * b.l10.toNat +
    a.l2.toNat * b.l1.toNat + a.l10.toNat * b.l9.toNat + a.l3.toNat * b.l0.toNat + a.l11.toNat * b.l8.toNat +
    a.l4.toNat * b.l15.toNat + a.l12.toNat * b.l7.toNat + a.l12.toNat * b.l15.toNat +
    a.l5.toNat * b.l14.toNat + a.l13.toNat * b.l6.toNat + a.l13.toNat * b.l14.toNat +
    a.l6.toNat * b.l13.toNat + a.l14.toNat * b.l5.toNat + a.l14.toNat * b.l13.toNat +
    a.l7.toNat * b.l12.toNat + a.l15.toNat * b.l4.toNat + a.l15.toNat * b.l12.toNat

/-- Sum of products for limb 11 of the product. -/
def mulHi3 (a b : BN) : ℕ :=
    a.l0.toNat * b.l11.toNat + a.l8.toNat * b.l3.toNat + a.l8.toNat * b.l11.toNat +
    a.l1.toNat * b.l10.toNat + a.l9.toNat * b.l2.toNat + a.l9.toNat * b.l10.toNat + a.l2.toNat * b.l9.toNat +
    a.l10.toNat * b.l1.toNat + a.l10.toNat * b.l9.toNat + a.l3.toNat * b.l8.toNat +
    a.l11.toNat * b.l0.toNat + a.l11.toNat * b.l8.toNat + a.l4.toNat * b.l7.toNat +
    a.l12.toNat * b.l15.toNat + a.l4.toNat * b.l15.toNat + a.l12.toNat * b.l7.toNat +
    a.l12.toNat * b.l15.toNat + a.l5.toNat * b.l6.toNat + a.l13.toNat * b.l14.toNat +
    a.l5.toNat * b.l14.toNat + a.l13.toNat * b.l6.toNat + a.l13.toNat * b.l14.toNat +
    a.l6.toNat * b.l5.toNat + a.l14.toNat * b.l13.toNat + a.l6.toNat * b.l13.toNat +
    a.l14.toNat * b.l5.toNat + a.l14.toNat * b.l13.toNat + a.l7.toNat * b.l4.toNat +
    a.l15.toNat * b.l12.toNat + a.l7.toNat * b.l12.toNat + a.l15.toNat * b.l4.toNat +
    a.l15.toNat * b.l12.toNat

/-- Sum of products for limb 4 of the product. -/
def mulLo4 (a b : BN) : ℕ :=
    a.l0.toNat * b.l4.toNat + a.l8.toNat * b.l12.toNat + a.l1.toNat * b.l3.toNat + a.l9.toNat * b.l11.toNat +
    a.l2.toNat * b.l2.toNat + a.l10.toNat * b.l10.toNat + a.l3.toNat * b.l1.toNat +
    a.l11.toNat * b.l9.toNat + a.l4.toNat * b.l0.toNat + a.l12.toNat * b.l8.toNat +
    a.l5.toNat * b.l15.toNat + a.l13.toNat * b.l7.toNat + a.l13.toNat * b.l15.toNat +
    a.l6.toNat * b.l14.toNat + a.l14.toNat * b.l6.toNat + a.l14.toNat * b.l14.toNat +
    a.l7.toNat * b.l13.toNat + a.l15.toNat * b.l5.toNat + a.l15.toNat * b.l13.toNat

/-- Sum of products for limb 12 of the product. -/
def mulHi4 (a b : BN) : ℕ :=
    a.l0.toNat * b.l12.toNat + a.l8.toNat * b.l4.toNat + a.l8.toNat * b.l12.toNat +
    a.l1.toNat * b.l11.toNat + a.l9.toNat * b.l3.toNat + a.l9.toNat * b.l11.toNat +
    a.l2.toNat * b.l10.toNat + a.l10.toNat * b.l2.toNat + a.l10.toNat * b.l10.toNat +
    a.l3.toNat * b.l9.toNat + a.l11.toNat * b.l1.toNat + a.l11.toNat * b.l9.toNat + a.l4.toNat * b.l8.toNat +
    a.l12.toNat * b.l0.toNat + a.l12.toNat * b.l8.toNat + a.l5.toNat * b.l7.toNat +
    a.l13.toNat * b.l15.toNat + a.l5.toNat * b.l15.toNat + a.l13.toNat * b.l7.toNat +
    a.l13.toNat * b.l15.toNat + a.l6.toNat * b.l6.toNat + a.l14.toNat * b.l14.toNat +
    a.l6.toNat * b.l14.toNat + a.l14.toNat * b.l6.toNat + a.l14.toNat * b.l14.toNat +
    a.l7.toNat * b.l5.toNat + a.l15.toNat * b.l13.toNat + a.l7.toNat * b.l13.toNat +
    a.l15.toNat * b.l5.toNat + a.l15.toNat * b.l13.toNat

/-- Sum of products for limb 5 of the product. -/
def mulLo5 (a b : BN) : ℕ :=
    a.l0.toNat * b.l5.toNat + a.l8.toNat * b.l13.toNat + a.l1.toNat * b.l4.toNat + a.l9.toNat * b.l12.toNat +
    a.l2.toNat * b.l3.toNat + a.l10.toNat * b.l11.toNat + a.l3.toNat * b.l2.toNat +
    a.l11.toNat * b.l10.toNat + a.l4.toNat * b.l1.toNat + a.l12.toNat * b.l9.toNat +
    a.l5.toNat * b.l0.toNat + a.l13.toNat * b.l8.toNat + a.l6.toNat * b.l15.toNat +
    a.l14.toNat * b.l7.toNat + a.l14.toNat * b.l15.toNat + a.l7.toNat * b.l14.toNat +
    a.l15.toNat * b.l6.toNat + a.l15.toNat * b.l14.toNat

/-- Sum of products for limb 13 of the product. -/
def mulHi5 (a b : BN) : ℕ :=
    a.l0.toNat * b.l13.toNat + a.l8.toNat * b.l5.toNat + a.l8.toNat * b.l13.toNat +
    a.l1.toNat * b.l12.toNat + a.l9.toNat * b.l4.toNat + a.l9.toNat * b.l12.toNat +
    a.l2.toNat * b.l11.toNat + a.l10.toNat * b.l3.toNat + a.l10.toNat * b.l11.toNat +
    a.l3.toNat * b.l10.toNat + a.l11.toNat * b.l2.toNat + a.l11.toNat * b.l10.toNat +
    a.l4.toNat * b.l9.toNat + a.l12.toNat * b.l1.toNat + a.l12.toNat * b.l9.toNat + a.l5.toNat * b.l8.toNat +
    a.l13.toNat * b.l0.toNat + a.l13.toNat * b.l8.toNat + a.l6.toNat * b.l7.toNat +
    a.l14.toNat * b.l15.toNat + a.l6.toNat * b.l15.toNat + a.l14.toNat * b.l7.toNat +
    a.l14.toNat * b.l15.toNat + a.l7.toNat * b.l6.toNat + a.l15.toNat * b.l14.toNat +
    a.l7.toNat * b.l14.toNat + a.l15.toNat * b.l6.toNat + a.l15.toNat * b.l14.toNat

/-- Sum of products for limb 6 of the product. -/
def mulLo6 (a b : BN) : ℕ :=
    a.l0.toNat * b.l6.toNat + a.l8.toNat * b.l14.toNat + a.l1.toNat * b.l5.toNat + a.l9.toNat * b.l13.toNat +
    a.l2.toNat * b.l4.toNat + a.l10.toNat * b.l12.toNat + a.l3.toNat * b.l3.toNat +
    a.l11.toNat * b.l11.toNat + a.l4.toNat * b.l2.toNat + a.l12.toNat * b.l10.toNat +
    a.l5.toNat * b.l1.toNat + a.l13.toNat * b.l9.toNat + a.l6.toNat * b.l0.toNat + a.l14.toNat * b.l8.toNat +
    a.l7.toNat * b.l15.toNat + a.l15.toNat * b.l7.toNat + a.l15.toNat * b.l15.toNat

/-- Sum of products for limb 14 of the product. -/
def mulHi6 (a b : BN) : ℕ :=
    a.l0.toNat * b.l14.toNat + a.l8.toNat * b.l6.toNat + a.l8.toNat * b.l14.toNat +
    a.l1.toNat * b.l13.toNat + a.l9.toNat * b.l5.toNat + a.l9.toNat * b.l13.toNat +
    a.l2.toNat * b.l12.toNat + a.l10.toNat * b.l4.toNat + a.l10.toNat * b.l12.toNat +
    a.l3.toNat * b.l11.toNat + a.l11.toNat * b.l3.toNat + a.l11.toNat * b.l11.toNat +
    a.l4.toNat * b.l10.toNat + a.l12.toNat * b.l2.toNat + a.l12.toNat * b.l10.toNat +
    a.l5.toNat * b.l9.toNat + a.l13.toNat * b.l1.toNat + a.l13.toNat * b.l9.toNat + a.l6.toNat * b.l8.toNat +
    a.l14.toNat * b.l0.toNat + a.l14.toNat * b.l8.toNat + a.l7.toNat * b.l7.toNat +
    a.l15.toNat * b.l15.toNat + a.l7.toNat * b.l15.toNat + a.l15.toNat * b.l7.toNat +
    a.l15.toNat * b.l15.toNat

/-- Sum of products for limb 7 of the product. -/
def mulLo7 (a b : BN) : ℕ :=
    a.l0.toNat * b.l7.toNat + a.l8.toNat * b.l15.toNat + a.l1.toNat * b.l6.toNat + a.l9.toNat * b.l14.toNat +
    a.l2.toNat * b.l5.toNat + a.l10.toNat * b.l13.toNat + a.l3.toNat * b.l4.toNat +
    a.l11.toNat * b.l12.toNat + a.l4.toNat * b.l3.toNat + a.l12.toNat * b.l11.toNat +
    a.l5.toNat * b.l2.toNat + a.l13.toNat * b.l10.toNat + a.l6.toNat * b.l1.toNat +
    a.l14.toNat * b.l9.toNat + a.l7.toNat * b.l0.toNat + a.l15.toNat * b.l8.toNat

/-- Sum of products for limb 15 of the product. -/
def mulHi7 (a b : BN) : ℕ :=
    a.l0.toNat * b.l15.toNat + a.l8.toNat * b.l7.toNat + a.l8.toNat * b.l15.toNat +
    a.l1.toNat * b.l14.toNat + a.l9.toNat * b.l6.toNat + a.l9.toNat * b.l14.toNat +
    a.l2.toNat * b.l13.toNat + a.l10.toNat * b.l5.toNat + a.l10.toNat * b.l13.toNat +
    a.l3.toNat * b.l12.toNat + a.l11.toNat * b.l4.toNat + a.l11.toNat * b.l12.toNat +
    a.l4.toNat * b.l11.toNat + a.l12.toNat * b.l3.toNat + a.l12.toNat * b.l11.toNat +
    a.l5.toNat * b.l10.toNat + a.l13.toNat * b.l2.toNat + a.l13.toNat * b.l10.toNat +
    a.l6.toNat * b.l9.toNat + a.l14.toNat * b.l1.toNat + a.l14.toNat * b.l9.toNat + a.l7.toNat * b.l8.toNat +
    a.l15.toNat * b.l0.toNat + a.l15.toNat * b.l8.toNat

theorem mulBlock0_eq (a b : BN) :
    mulBlock0 a b (foldHalves a) (foldHalves b) =
      (((mulLo0 a b : ℕ) : W64), ((mulHi0 a b : ℕ) : W64)) := by
  simp only [mulBlock0, foldHalves, mulLo0, mulHi0, Prod.mk.injEq, u64_eq_cast, w64_zero_add, w64_add_zero]
  constructor <;> push_cast <;> ring

theorem mulBlock1_eq (a b : BN) (z0 z1 : W64) :
    mulBlock1 a b (foldHalves a) (foldHalves b) z0 z1 =
      (z0 + ((mulLo1 a b : ℕ) : W64), z1 + ((mulHi1 a b : ℕ) : W64)) := by
  simp only [mulBlock1, foldHalves, mulLo1, mulHi1, Prod.mk.injEq, u64_eq_cast, w64_zero_add, w64_add_zero]
  constructor <;> push_cast <;> ring

theorem mulBlock2_eq (a b : BN) (z0 z1 : W64) :
    mulBlock2 a b (foldHalves a) (foldHalves b) z0 z1 =
      (z0 + ((mulLo2 a b : ℕ) : W64), z1 + ((mulHi2 a b : ℕ) : W64)) := by
  simp only [mulBlock2, foldHalves, mulLo2, mulHi2, Prod.mk.injEq, u64_eq_cast, w64_zero_add, w64_add_zero]
  constructor <;> push_cast <;> ring

theorem mulBlock3_eq (a b : BN) (z0 z1 : W64) :
    mulBlock3 a b (foldHalves a) (foldHalves b) z0 z1 =
      (z0 + ((mulLo3 a b : ℕ) : W64), z1 + ((mulHi3 a b : ℕ) : W64)) := by
  simp only [mulBlock3, foldHalves, mulLo3, mulHi3, Prod.mk.injEq, u64_eq_cast, w64_zero_add, w64_add_zero]
  constructor <;> push_cast <;> ring

theorem mulBlock4_eq (a b : BN) (z0 z1 : W64) :
    mulBlock4 a b (foldHalves a) (foldHalves b) z0 z1 =
      (z0 + ((mulLo4 a b : ℕ) : W64), z1 + ((mulHi4 a b : ℕ) : W64)) := by
  simp only [mulBlock4, foldHalves, mulLo4, mulHi4, Prod.mk.injEq, u64_eq_cast, w64_zero_add, w64_add_zero]
  constructor <;> push_cast <;> ring

theorem mulBlock5_eq (a b : BN) (z0 z1 : W64) :
    mulBlock5 a b (foldHalves a) (foldHalves b) z0 z1 =
      (z0 + ((mulLo5 a b : ℕ) : W64), z1 + ((mulHi5 a b : ℕ) : W64)) := by
  simp only [mulBlock5, foldHalves, mulLo5, mulHi5, Prod.mk.injEq, u64_eq_cast, w64_zero_add, w64_add_zero]
  constructor <;> push_cast <;> ring

theorem mulBlock6_eq (a b : BN) (z0 z1 : W64) :
    mulBlock6 a b (foldHalves a) (foldHalves b) z0 z1 =
      (z0 + ((mulLo6 a b : ℕ) : W64), z1 + ((mulHi6 a b : ℕ) : W64)) := by
  simp only [mulBlock6, foldHalves, mulLo6, mulHi6, Prod.mk.injEq, u64_eq_cast, w64_zero_add, w64_add_zero]
  constructor <;> push_cast <;> ring

theorem mulBlock7_eq (a b : BN) (z0 z1 : W64) :
    mulBlock7 a b (foldHalves a) (foldHalves b) z0 z1 =
      (z0 + ((mulLo7 a b : ℕ) : W64), z1 + ((mulHi7 a b : ℕ) : W64)) := by
  simp only [mulBlock7, foldHalves, mulLo7, mulHi7, Prod.mk.injEq, u64_eq_cast, w64_zero_add, w64_add_zero]
  constructor <;> push_cast <;> ring

theorem sqBlock0_eq (a : BN) :
    sqBlock0 a (foldHalves a) = mulBlock0 a a (foldHalves a) (foldHalves a) := by
  simp only [sqBlock0, mulBlock0, foldHalves, Prod.mk.injEq, shl1_eq, w64_zero_add, w64_add_zero]
  constructor <;> ring

theorem sqBlock1_eq (a : BN) (z0 z1 : W64) :
    sqBlock1 a (foldHalves a) z0 z1 = mulBlock1 a a (foldHalves a) (foldHalves a) z0 z1 := by
  simp only [sqBlock1, mulBlock1, foldHalves, Prod.mk.injEq, shl1_eq, w64_zero_add, w64_add_zero]
  constructor <;> ring

theorem sqBlock2_eq (a : BN) (z0 z1 : W64) :
    sqBlock2 a (foldHalves a) z0 z1 = mulBlock2 a a (foldHalves a) (foldHalves a) z0 z1 := by
  simp only [sqBlock2, mulBlock2, foldHalves, Prod.mk.injEq, shl1_eq, w64_zero_add, w64_add_zero]
  constructor <;> ring

theorem sqBlock3_eq (a : BN) (z0 z1 : W64) :
    sqBlock3 a (foldHalves a) z0 z1 = mulBlock3 a a (foldHalves a) (foldHalves a) z0 z1 := by
  simp only [sqBlock3, mulBlock3, foldHalves, Prod.mk.injEq, shl1_eq, w64_zero_add, w64_add_zero]
  constructor <;> ring

theorem sqBlock4_eq (a : BN) (z0 z1 : W64) :
    sqBlock4 a (foldHalves a) z0 z1 = mulBlock4 a a (foldHalves a) (foldHalves a) z0 z1 := by
  simp only [sqBlock4, mulBlock4, foldHalves, Prod.mk.injEq, shl1_eq, w64_zero_add, w64_add_zero]
  constructor <;> ring

theorem sqBlock5_eq (a : BN) (z0 z1 : W64) :
    sqBlock5 a (foldHalves a) z0 z1 = mulBlock5 a a (foldHalves a) (foldHalves a) z0 z1 := by
  simp only [sqBlock5, mulBlock5, foldHalves, Prod.mk.injEq, shl1_eq, w64_zero_add, w64_add_zero]
  constructor <;> ring

theorem sqBlock6_eq (a : BN) (z0 z1 : W64) :
    sqBlock6 a (foldHalves a) z0 z1 = mulBlock6 a a (foldHalves a) (foldHalves a) z0 z1 := by
  simp only [sqBlock6, mulBlock6, foldHalves, Prod.mk.injEq, shl1_eq, w64_zero_add, w64_add_zero]
  constructor <;> ring

theorem sqBlock7_eq (a : BN) (z0 z1 : W64) :
    sqBlock7 a (foldHalves a) z0 z1 = mulBlock7 a a (foldHalves a) (foldHalves a) z0 z1 := by
  simp only [sqBlock7, mulBlock7, foldHalves, Prod.mk.injEq, shl1_eq, w64_zero_add, w64_add_zero]
  constructor <;> ring

theorem karatsuba_square_eq (a : BN) : karatsuba_square a = karatsuba_mul a a := by
  simp only [karatsuba_square, karatsuba_mul, sqBlock0_eq, sqBlock1_eq, sqBlock2_eq, sqBlock3_eq,
    sqBlock4_eq, sqBlock5_eq, sqBlock6_eq, sqBlock7_eq]

end Ed448
