import Mathlib.Algebra.BigOperators.Group.List.Basic
import Mathlib.Data.List.Pairwise
import Mathlib.Algebra.Order.Group.Unbundled.Abs
import Mathlib.Algebra.Order.Group.Int

/-!
# Numbers written with odd signed digits

The sparse form used for multiplications of public points, and the number of field multiplications such a multiplication takes.
-/

namespace Ed448

/-- The number given by digits: a digit `(i, d)` stands for `d` times `2^i`. -/
def digitsSum (L : List (ℕ × ℤ)) : ℤ := (L.map fun d => d.2 * 2 ^ d.1).sum

/-- `L` writes `n` with odd digits between `-2^w` and `2^w`, the highest first, any two of them more than `w` positions apart. -/
structure SignedDigits (w : ℕ) (n : ℤ) (L : List (ℕ × ℤ)) : Prop where
  odd : ∀ d ∈ L, d.2 % 2 = 1
  small : ∀ d ∈ L, |d.2| < 2 ^ w
  apart : L.Pairwise fun a b => b.1 + w < a.1
  sum : digitsSum L = n

/-- The multiplications of the field for the main loop of a double multiplication with digits `V` and `P`: seven for every doubling, eight for every further
digit of the first number and seven for every further digit of the second; one more for the last step if there is a step at all; for the start four, one
or eleven, when the highest digit is that of the first number, that of the second (or there is none), or when both are at the same place. In the last case
the eleven include the one for the last step. -/
def doubleMults (V P : List (ℕ × ℤ)) : ℕ :=
  match V, P with
  | [], [] => 1
  | [], p :: P => 1 + 7 * p.1 + 7 * P.length + (if p.1 = 0 then 0 else 1)
  | v :: V, [] => 4 + 7 * v.1 + 8 * V.length + (if v.1 = 0 then 0 else 1)
  | v :: V, p :: P =>
    if v.1 < p.1 then 1 + 7 * p.1 + 8 * (v :: V).length + 7 * P.length + 1
    else if v.1 = p.1 then 11 + 7 * v.1 + 8 * V.length + 7 * P.length
    else 4 + 7 * v.1 + 8 * V.length + 7 * (p :: P).length + 1

end Ed448
