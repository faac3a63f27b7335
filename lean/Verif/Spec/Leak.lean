import Verif.Model.Leak
import Verif.Spec.Curve

/-!
# What the records of the accesses are compared with

The multiplication of the base point works with a number `h`, whose 450 bits it takes in columns of five bits, and reads one entry of the
precomputed table for each column.
-/

set_option exponentiation.threshold 1000

namespace Ed448

/-- Forgets which entry of the precomputed table was read. -/
def Event.hide : Event → Event
  | .table _ => .table 0
  | e => e

/-- The positions read in the precomputed table, in order. -/
def tables (es : List Event) : List Nat := es.filterMap fun
  | .table i => some i
  | _ => none

/-- The position of the precomputed table that belongs to five bits of `h` that are 18 apart: those from `i + 90 j` on. Table `j` has
16 entries; bit `k < 4` of the position tells if the `k`th of the bits equals the last one. -/
def combPosition (h i j : ℕ) : ℕ :=
  16 * j + ∑ k ∈ Finset.range 4, if h.testBit (i + 90 * j + 18 * k) = h.testBit (i + 90 * j + 72) then 2 ^ k else 0

/-- The positions in the order of the reads. -/
def combPositions (h : ℕ) : List ℕ := (List.range 18).reverse.flatMap fun i => (List.range 5).map fun j => combPosition h i j

/-- What the number `h` on which the comb multiplication works has to do with `n`: it belongs to a quarter of `n`. -/
def Leak.CombOf (n h : ℕ) : Prop := h < q ∧ 8 * h ≡ n + 4 * (2 ^ 450 - 1) [MOD q]

end Ed448
