import Mathlib.Tactic.LinearCombination
import Mathlib.Algebra.Field.Basic

/-!
# The 4-isogeny is a homomorphism: polynomial certificates

Generated by `tools/gen_iso.py`.
-/

namespace Ed448

variable {K : Type*} [Field K]

theorem isogeny_add_x {d x1 y1 x2 y2 a b p n m1 m2 s1 s2 D1 D2 E1 E2 : K}
    (h1 : x1 ^ 2 + y1 ^ 2 = 1 + d * x1 ^ 2 * y1 ^ 2) (h2 : x2 ^ 2 + y2 ^ 2 = 1 + d * x2 ^ 2 * y2 ^ 2)
    (ha : a = x1 * y2 + x2 * y1) (hb : b = y1 * y2 - x1 * x2) (hp : p = 1 + d * x1 * x2 * y1 * y2)
    (hn : n = 1 - d * x1 * x2 * y1 * y2) (hm1 : m1 = x1 * y1) (hm2 : m2 = x2 * y2) (hs1 : s1 = x1 ^ 2 + y1 ^ 2)
    (hs2 : s2 = x2 ^ 2 + y2 ^ 2) (hD1 : D1 = x1 ^ 2 - y1 ^ 2) (hD2 : D2 = x2 ^ 2 - y2 ^ 2)
    (hE1 : E1 = 2 - x1 ^ 2 - y1 ^ 2) (hE2 : E2 = 2 - x2 ^ 2 - y2 ^ 2) :
    d ^ 2 * (2 * (a * b) * (p * n) * (D1 * E1 * (D2 * E2) + (d - 1) * (2 * m1) * (2 * m2) * s1 * s2)) =
      d ^ 2 * ((a ^ 2 * n ^ 2 - b ^ 2 * p ^ 2) * (2 * m1 * s2 * (E1 * D2) + s1 * (2 * m2) * (D1 * E2))) := by
  subst ha hb hp hn hm1 hm2 hs1 hs2 hD1 hD2 hE1 hE2
  linear_combination (exp := 1) (-(8 * x1^5 * y1 * x2^6 * y2^4 * d^4 - 4 * x1^5 * y1 * x2^6 * y2^2 * d^3 + 8 * x1^5 *
    y1 * x2^4 * y2^6 * d^4 - 8 * x1^5 * y1 * x2^4 * y2^4 * d^3 - 4 * x1^5 * y1 * x2^2 * y2^6 * d^3 + 8 * x1^4 * y1^2 *
    x2^7 * y2^3 * d^4 - 8 * x1^4 * y1^2 * x2^3 * y2^7 * d^4 + 4 * x1^4 * x2^7 * y2^3 * d^3 - 4 * x1^4 * x2^7 * y2 *
    d^2 + 8 * x1^4 * x2^5 * y2^3 * d^3 - 4 * x1^4 * x2^5 * y2^3 * d^2 - 4 * x1^4 * x2^3 * y2^7 * d^3 - 8 * x1^4 * x2^3
    * y2^5 * d^3 + 4 * x1^4 * x2^3 * y2^5 * d^2 + 4 * x1^4 * x2 * y2^7 * d^2 + 8 * x1^3 * y1 * x2^6 * y2^4 * d^3 + 8 *
    x1^3 * y1 * x2^6 * y2^2 * d^3 - 8 * x1^3 * y1 * x2^6 * y2^2 * d^2 + 8 * x1^3 * y1 * x2^4 * y2^6 * d^3 - 16 * x1^3
    * y1 * x2^4 * y2^4 * d^3 - 16 * x1^3 * y1 * x2^4 * y2^4 * d^2 + 8 * x1^3 * y1 * x2^4 * y2^2 * d^2 + 8 * x1^3 * y1
    * x2^2 * y2^6 * d^3 - 8 * x1^3 * y1 * x2^2 * y2^6 * d^2 + 8 * x1^3 * y1 * x2^2 * y2^4 * d^2 + 8 * x1^2 * y1^4 *
    x2^7 * y2^3 * d^4 - 8 * x1^2 * y1^4 * x2^3 * y2^7 * d^4 + 8 * x1^2 * y1^2 * x2^7 * y2^3 * d^3 - 8 * x1^2 * y1^2 *
    x2^7 * y2 * d^2 - 16 * x1^2 * y1^2 * x2^5 * y2^3 * d^3 - 8 * x1^2 * y1^2 * x2^5 * y2^3 * d^2 - 8 * x1^2 * y1^2 *
    x2^3 * y2^7 * d^3 + 16 * x1^2 * y1^2 * x2^3 * y2^5 * d^3 + 8 * x1^2 * y1^2 * x2^3 * y2^5 * d^2 + 8 * x1^2 * y1^2 *
    x2 * y2^7 * d^2 - 8 * x1^2 * x2^7 * y2^3 * d^3 + 12 * x1^2 * x2^7 * y2^3 * d^2 + 8 * x1^2 * x2^7 * y2 * d^2 - 12 *
    x1^2 * x2^7 * y2 * d - 12 * x1^2 * x2^5 * y2^3 * d - 8 * x1^2 * x2^5 * y2 * d^2 + 20 * x1^2 * x2^5 * y2 * d + 8 *
    x1^2 * x2^3 * y2^7 * d^3 - 12 * x1^2 * x2^3 * y2^7 * d^2 + 12 * x1^2 * x2^3 * y2^5 * d - 8 * x1^2 * x2^3 * y2 * d
    - 8 * x1^2 * x2 * y2^7 * d^2 + 12 * x1^2 * x2 * y2^7 * d + 8 * x1^2 * x2 * y2^5 * d^2 - 20 * x1^2 * x2 * y2^5 * d
    + 8 * x1^2 * x2 * y2^3 * d - 8 * x1 * y1^5 * x2^6 * y2^4 * d^4 + 4 * x1 * y1^5 * x2^6 * y2^2 * d^3 - 8 * x1 * y1^5
    * x2^4 * y2^6 * d^4 + 8 * x1 * y1^5 * x2^4 * y2^4 * d^3 + 4 * x1 * y1^5 * x2^2 * y2^6 * d^3 - 8 * x1 * y1^3 * x2^6
    * y2^4 * d^3 - 8 * x1 * y1^3 * x2^6 * y2^2 * d^3 + 8 * x1 * y1^3 * x2^6 * y2^2 * d^2 - 8 * x1 * y1^3 * x2^4 * y2^6
    * d^3 + 16 * x1 * y1^3 * x2^4 * y2^4 * d^3 + 16 * x1 * y1^3 * x2^4 * y2^4 * d^2 - 8 * x1 * y1^3 * x2^4 * y2^2 *
    d^2 - 8 * x1 * y1^3 * x2^2 * y2^6 * d^3 + 8 * x1 * y1^3 * x2^2 * y2^6 * d^2 - 8 * x1 * y1^3 * x2^2 * y2^4 * d^2 +
    4 * y1^4 * x2^7 * y2^3 * d^3 - 4 * y1^4 * x2^7 * y2 * d^2 + 8 * y1^4 * x2^5 * y2^3 * d^3 - 4 * y1^4 * x2^5 * y2^3
    * d^2 - 4 * y1^4 * x2^3 * y2^7 * d^3 - 8 * y1^4 * x2^3 * y2^5 * d^3 + 4 * y1^4 * x2^3 * y2^5 * d^2 + 4 * y1^4 * x2
    * y2^7 * d^2 - 8 * y1^2 * x2^7 * y2^3 * d^3 + 12 * y1^2 * x2^7 * y2^3 * d^2 + 8 * y1^2 * x2^7 * y2 * d^2 - 12 *
    y1^2 * x2^7 * y2 * d - 12 * y1^2 * x2^5 * y2^3 * d - 8 * y1^2 * x2^5 * y2 * d^2 + 20 * y1^2 * x2^5 * y2 * d + 8 *
    y1^2 * x2^3 * y2^7 * d^3 - 12 * y1^2 * x2^3 * y2^7 * d^2 + 12 * y1^2 * x2^3 * y2^5 * d - 8 * y1^2 * x2^3 * y2 * d
    - 8 * y1^2 * x2 * y2^7 * d^2 + 12 * y1^2 * x2 * y2^7 * d + 8 * y1^2 * x2 * y2^5 * d^2 - 20 * y1^2 * x2 * y2^5 * d
    + 8 * y1^2 * x2 * y2^3 * d - 24 * x2^7 * y2^3 * d^2 + 24 * x2^7 * y2^3 * d + 24 * x2^7 * y2 * d - 24 * x2^7 * y2 +
    16 * x2^5 * y2^3 * d^2 + 8 * x2^5 * y2^3 * d - 24 * x2^5 * y2^3 - 40 * x2^5 * y2 * d + 40 * x2^5 * y2 + 24 * x2^3
    * y2^7 * d^2 - 24 * x2^3 * y2^7 * d - 16 * x2^3 * y2^5 * d^2 - 8 * x2^3 * y2^5 * d + 24 * x2^3 * y2^5 + 16 * x2^3
    * y2 * d - 16 * x2^3 * y2 - 24 * x2 * y2^7 * d + 24 * x2 * y2^7 + 40 * x2 * y2^5 * d - 40 * x2 * y2^5 - 16 * x2 *
    y2^3 * d + 16 * x2 * y2^3)) * h1 + (-(8 * x1^7 * y1 * x2^4 * y2^2 * d^3 + 8 * x1^7 * y1 * x2^2 * y2^4 * d^3 + 4 *
    x1^6 * x2^5 * y2 * d^2 + 8 * x1^6 * x2^3 * y2 * d^2 - 4 * x1^6 * x2 * y2^5 * d^2 - 8 * x1^6 * x2 * y2^3 * d^2 - 8
    * x1^5 * y1 * x2^4 * y2^2 * d^3 + 8 * x1^5 * y1 * x2^4 * y2^2 * d^2 + 4 * x1^5 * y1 * x2^4 * d^2 - 8 * x1^5 * y1 *
    x2^2 * y2^4 * d^3 + 8 * x1^5 * y1 * x2^2 * y2^4 * d^2 - 24 * x1^5 * y1 * x2^2 * y2^2 * d^2 + 4 * x1^5 * y1 * y2^4
    * d^2 - 12 * x1^4 * x2^5 * y2 * d^2 + 12 * x1^4 * x2^5 * y2 * d - 8 * x1^4 * x2^3 * y2 * d^2 - 8 * x1^4 * x2^3 *
    y2 * d + 12 * x1^4 * x2 * y2^5 * d^2 - 12 * x1^4 * x2 * y2^5 * d + 8 * x1^4 * x2 * y2^3 * d^2 + 8 * x1^4 * x2 *
    y2^3 * d - 8 * x1^3 * y1 * x2^4 * y2^2 * d^2 - 8 * x1^3 * y1 * x2^4 * d^2 - 8 * x1^3 * y1 * x2^2 * y2^4 * d^2 + 16
    * x1^3 * y1 * x2^2 * y2^2 * d^2 - 8 * x1^3 * y1 * y2^4 * d^2 + 8 * x1^2 * x2^5 * y2 * d^2 - 36 * x1^2 * x2^5 * y2
    * d + 24 * x1^2 * x2^5 * y2 + 24 * x1^2 * x2^3 * y2 * d - 16 * x1^2 * x2^3 * y2 - 8 * x1^2 * x2 * y2^5 * d^2 + 36
    * x1^2 * x2 * y2^5 * d - 24 * x1^2 * x2 * y2^5 - 24 * x1^2 * x2 * y2^3 * d + 16 * x1^2 * x2 * y2^3 - 8 * x1 * y1^7
    * x2^4 * y2^2 * d^3 - 8 * x1 * y1^7 * x2^2 * y2^4 * d^3 + 8 * x1 * y1^5 * x2^4 * y2^2 * d^3 - 8 * x1 * y1^5 * x2^4
    * y2^2 * d^2 - 4 * x1 * y1^5 * x2^4 * d^2 + 8 * x1 * y1^5 * x2^2 * y2^4 * d^3 - 8 * x1 * y1^5 * x2^2 * y2^4 * d^2
    + 24 * x1 * y1^5 * x2^2 * y2^2 * d^2 - 4 * x1 * y1^5 * y2^4 * d^2 + 8 * x1 * y1^3 * x2^4 * y2^2 * d^2 + 8 * x1 *
    y1^3 * x2^4 * d^2 + 8 * x1 * y1^3 * x2^2 * y2^4 * d^2 - 16 * x1 * y1^3 * x2^2 * y2^2 * d^2 + 8 * x1 * y1^3 * y2^4
    * d^2 + 4 * y1^6 * x2^5 * y2 * d^2 + 8 * y1^6 * x2^3 * y2 * d^2 - 4 * y1^6 * x2 * y2^5 * d^2 - 8 * y1^6 * x2 *
    y2^3 * d^2 - 12 * y1^4 * x2^5 * y2 * d^2 + 12 * y1^4 * x2^5 * y2 * d - 8 * y1^4 * x2^3 * y2 * d^2 - 8 * y1^4 *
    x2^3 * y2 * d + 12 * y1^4 * x2 * y2^5 * d^2 - 12 * y1^4 * x2 * y2^5 * d + 8 * y1^4 * x2 * y2^3 * d^2 + 8 * y1^4 *
    x2 * y2^3 * d + 8 * y1^2 * x2^5 * y2 * d^2 - 36 * y1^2 * x2^5 * y2 * d + 24 * y1^2 * x2^5 * y2 + 24 * y1^2 * x2^3
    * y2 * d - 16 * y1^2 * x2^3 * y2 - 8 * y1^2 * x2 * y2^5 * d^2 + 36 * y1^2 * x2 * y2^5 * d - 24 * y1^2 * x2 * y2^5
    - 24 * y1^2 * x2 * y2^3 * d + 16 * y1^2 * x2 * y2^3 + 24 * x2^5 * y2 * d - 24 * x2^5 * y2 - 16 * x2^3 * y2 * d +
    16 * x2^3 * y2 - 24 * x2 * y2^5 * d + 24 * x2 * y2^5 + 16 * x2 * y2^3 * d - 16 * x2 * y2^3)) * h2

theorem isogeny_add_y {d x1 y1 x2 y2 a b p n m1 m2 s1 s2 D1 D2 E1 E2 : K}
    (h1 : x1 ^ 2 + y1 ^ 2 = 1 + d * x1 ^ 2 * y1 ^ 2) (h2 : x2 ^ 2 + y2 ^ 2 = 1 + d * x2 ^ 2 * y2 ^ 2)
    (ha : a = x1 * y2 + x2 * y1) (hb : b = y1 * y2 - x1 * x2) (hp : p = 1 + d * x1 * x2 * y1 * y2)
    (hn : n = 1 - d * x1 * x2 * y1 * y2) (hm1 : m1 = x1 * y1) (hm2 : m2 = x2 * y2) (hs1 : s1 = x1 ^ 2 + y1 ^ 2)
    (hs2 : s2 = x2 ^ 2 + y2 ^ 2) (hD1 : D1 = x1 ^ 2 - y1 ^ 2) (hD2 : D2 = x2 ^ 2 - y2 ^ 2)
    (hE1 : E1 = 2 - x1 ^ 2 - y1 ^ 2) (hE2 : E2 = 2 - x2 ^ 2 - y2 ^ 2) :
    d * ((a ^ 2 * n ^ 2 + b ^ 2 * p ^ 2) * (D1 * E1 * (D2 * E2) - (d - 1) * (2 * m1) * (2 * m2) * s1 * s2)) =
      d * ((2 * (p * n) ^ 2 - (a ^ 2 * n ^ 2 + b ^ 2 * p ^ 2)) * (s1 * s2 * (D1 * D2) + 2 * m1 * (2 * m2) * (E1 * E2))) := by
  subst ha hb hp hn hm1 hm2 hs1 hs2 hD1 hD2 hE1 hE2
  linear_combination (exp := 1) (-(-2 * x1^6 * y1^2 * x2^8 * y2^4 * d^4 + 2 * x1^6 * y1^2 * x2^4 * y2^8 * d^4 - 2 *
    x1^6 * x2^8 * y2^4 * d^3 + 2 * x1^6 * x2^8 * y2^2 * d^2 + 2 * x1^6 * x2^6 * y2^4 * d^2 - 2 * x1^6 * x2^6 * y2^2 *
    d^2 + 2 * x1^6 * x2^4 * y2^8 * d^3 - 2 * x1^6 * x2^4 * y2^6 * d^2 - 2 * x1^6 * x2^2 * y2^8 * d^2 + 2 * x1^6 * x2^2
    * y2^6 * d^2 - 8 * x1^5 * y1^3 * x2^7 * y2^5 * d^4 - 8 * x1^5 * y1^3 * x2^5 * y2^7 * d^4 + 16 * x1^5 * y1^3 * x2^5
    * y2^5 * d^4 - 8 * x1^5 * y1 * x2^7 * y2^5 * d^3 - 4 * x1^5 * y1 * x2^7 * y2^3 * d^3 + 8 * x1^5 * y1 * x2^7 * y2^3
    * d^2 - 8 * x1^5 * y1 * x2^5 * y2^7 * d^3 + 8 * x1^5 * y1 * x2^5 * y2^5 * d^3 + 16 * x1^5 * y1 * x2^5 * y2^5 * d^2
    - 8 * x1^5 * y1 * x2^5 * y2^3 * d^2 - 4 * x1^5 * y1 * x2^3 * y2^7 * d^3 + 8 * x1^5 * y1 * x2^3 * y2^7 * d^2 - 8 *
    x1^5 * y1 * x2^3 * y2^5 * d^2 - 2 * x1^4 * y1^2 * x2^8 * y2^4 * d^3 + 2 * x1^4 * y1^2 * x2^8 * y2^2 * d^2 + 2 *
    x1^4 * y1^2 * x2^6 * y2^4 * d^2 - 2 * x1^4 * y1^2 * x2^6 * y2^2 * d^2 + 2 * x1^4 * y1^2 * x2^4 * y2^8 * d^3 - 2 *
    x1^4 * y1^2 * x2^4 * y2^6 * d^2 - 2 * x1^4 * y1^2 * x2^2 * y2^8 * d^2 + 2 * x1^4 * y1^2 * x2^2 * y2^6 * d^2 + 2 *
    x1^4 * x2^8 * y2^4 * d^3 - 4 * x1^4 * x2^8 * y2^4 * d^2 - 2 * x1^4 * x2^8 * y2^2 * d^2 + 4 * x1^4 * x2^8 * y2^2 *
    d - 2 * x1^4 * x2^6 * y2^4 * d^2 + 4 * x1^4 * x2^6 * y2^4 * d - 4 * x1^4 * x2^6 * y2^2 * d - 2 * x1^4 * x2^4 *
    y2^8 * d^3 + 4 * x1^4 * x2^4 * y2^8 * d^2 + 2 * x1^4 * x2^4 * y2^6 * d^2 - 4 * x1^4 * x2^4 * y2^6 * d + 2 * x1^4 *
    x2^2 * y2^8 * d^2 - 4 * x1^4 * x2^2 * y2^8 * d + 4 * x1^4 * x2^2 * y2^6 * d - 8 * x1^3 * y1^5 * x2^7 * y2^5 * d^4
    - 8 * x1^3 * y1^5 * x2^5 * y2^7 * d^4 + 16 * x1^3 * y1^5 * x2^5 * y2^5 * d^4 + 16 * x1^3 * y1^3 * x2^7 * y2^5 *
    d^4 - 16 * x1^3 * y1^3 * x2^7 * y2^5 * d^3 - 8 * x1^3 * y1^3 * x2^7 * y2^3 * d^3 + 16 * x1^3 * y1^3 * x2^7 * y2^3
    * d^2 + 16 * x1^3 * y1^3 * x2^5 * y2^7 * d^4 - 16 * x1^3 * y1^3 * x2^5 * y2^7 * d^3 - 32 * x1^3 * y1^3 * x2^5 *
    y2^5 * d^4 + 16 * x1^3 * y1^3 * x2^5 * y2^5 * d^3 + 32 * x1^3 * y1^3 * x2^5 * y2^5 * d^2 - 16 * x1^3 * y1^3 * x2^5
    * y2^3 * d^2 - 8 * x1^3 * y1^3 * x2^3 * y2^7 * d^3 + 16 * x1^3 * y1^3 * x2^3 * y2^7 * d^2 - 16 * x1^3 * y1^3 *
    x2^3 * y2^5 * d^2 + 24 * x1^3 * y1 * x2^7 * y2^5 * d^3 - 24 * x1^3 * y1 * x2^7 * y2^5 * d^2 - 20 * x1^3 * y1 *
    x2^7 * y2^3 * d^2 + 24 * x1^3 * y1 * x2^7 * y2^3 * d - 4 * x1^3 * y1 * x2^7 * y2 * d + 24 * x1^3 * y1 * x2^5 *
    y2^7 * d^3 - 24 * x1^3 * y1 * x2^5 * y2^7 * d^2 - 48 * x1^3 * y1 * x2^5 * y2^5 * d^3 + 8 * x1^3 * y1 * x2^5 * y2^5
    * d^2 + 48 * x1^3 * y1 * x2^5 * y2^5 * d + 64 * x1^3 * y1 * x2^5 * y2^3 * d^2 - 84 * x1^3 * y1 * x2^5 * y2^3 * d +
    4 * x1^3 * y1 * x2^5 * y2 * d - 20 * x1^3 * y1 * x2^3 * y2^7 * d^2 + 24 * x1^3 * y1 * x2^3 * y2^7 * d + 64 * x1^3
    * y1 * x2^3 * y2^5 * d^2 - 84 * x1^3 * y1 * x2^3 * y2^5 * d - 32 * x1^3 * y1 * x2^3 * y2^3 * d^2 + 56 * x1^3 * y1
    * x2^3 * y2^3 * d - 4 * x1^3 * y1 * x2 * y2^7 * d + 4 * x1^3 * y1 * x2 * y2^5 * d + 2 * x1^2 * y1^6 * x2^8 * y2^4
    * d^4 - 2 * x1^2 * y1^6 * x2^4 * y2^8 * d^4 + 2 * x1^2 * y1^4 * x2^8 * y2^4 * d^3 - 2 * x1^2 * y1^4 * x2^8 * y2^2
    * d^2 - 2 * x1^2 * y1^4 * x2^6 * y2^4 * d^2 + 2 * x1^2 * y1^4 * x2^6 * y2^2 * d^2 - 2 * x1^2 * y1^4 * x2^4 * y2^8
    * d^3 + 2 * x1^2 * y1^4 * x2^4 * y2^6 * d^2 + 2 * x1^2 * y1^4 * x2^2 * y2^8 * d^2 - 2 * x1^2 * y1^4 * x2^2 * y2^6
    * d^2 + 4 * x1^2 * x2^8 * y2^4 * d^2 - 4 * x1^2 * x2^8 * y2^4 * d - 4 * x1^2 * x2^8 * y2^2 * d + 4 * x1^2 * x2^8 *
    y2^2 - 4 * x1^2 * x2^6 * y2^4 * d + 4 * x1^2 * x2^6 * y2^4 + 2 * x1^2 * x2^6 * y2^2 * d - 4 * x1^2 * x2^6 * y2^2 +
    2 * x1^2 * x2^6 - 4 * x1^2 * x2^4 * y2^8 * d^2 + 4 * x1^2 * x2^4 * y2^8 * d + 4 * x1^2 * x2^4 * y2^6 * d - 4 *
    x1^2 * x2^4 * y2^6 + 2 * x1^2 * x2^4 * y2^2 - 2 * x1^2 * x2^4 + 4 * x1^2 * x2^2 * y2^8 * d - 4 * x1^2 * x2^2 *
    y2^8 - 2 * x1^2 * x2^2 * y2^6 * d + 4 * x1^2 * x2^2 * y2^6 - 2 * x1^2 * x2^2 * y2^4 - 2 * x1^2 * y2^6 + 2 * x1^2 *
    y2^4 - 8 * x1 * y1^5 * x2^7 * y2^5 * d^3 - 4 * x1 * y1^5 * x2^7 * y2^3 * d^3 + 8 * x1 * y1^5 * x2^7 * y2^3 * d^2 -
    8 * x1 * y1^5 * x2^5 * y2^7 * d^3 + 8 * x1 * y1^5 * x2^5 * y2^5 * d^3 + 16 * x1 * y1^5 * x2^5 * y2^5 * d^2 - 8 *
    x1 * y1^5 * x2^5 * y2^3 * d^2 - 4 * x1 * y1^5 * x2^3 * y2^7 * d^3 + 8 * x1 * y1^5 * x2^3 * y2^7 * d^2 - 8 * x1 *
    y1^5 * x2^3 * y2^5 * d^2 + 24 * x1 * y1^3 * x2^7 * y2^5 * d^3 - 24 * x1 * y1^3 * x2^7 * y2^5 * d^2 - 20 * x1 *
    y1^3 * x2^7 * y2^3 * d^2 + 24 * x1 * y1^3 * x2^7 * y2^3 * d - 4 * x1 * y1^3 * x2^7 * y2 * d + 24 * x1 * y1^3 *
    x2^5 * y2^7 * d^3 - 24 * x1 * y1^3 * x2^5 * y2^7 * d^2 - 48 * x1 * y1^3 * x2^5 * y2^5 * d^3 + 8 * x1 * y1^3 * x2^5
    * y2^5 * d^2 + 48 * x1 * y1^3 * x2^5 * y2^5 * d + 64 * x1 * y1^3 * x2^5 * y2^3 * d^2 - 84 * x1 * y1^3 * x2^5 *
    y2^3 * d + 4 * x1 * y1^3 * x2^5 * y2 * d - 20 * x1 * y1^3 * x2^3 * y2^7 * d^2 + 24 * x1 * y1^3 * x2^3 * y2^7 * d +
    64 * x1 * y1^3 * x2^3 * y2^5 * d^2 - 84 * x1 * y1^3 * x2^3 * y2^5 * d - 32 * x1 * y1^3 * x2^3 * y2^3 * d^2 + 56 *
    x1 * y1^3 * x2^3 * y2^3 * d - 4 * x1 * y1^3 * x2 * y2^7 * d + 4 * x1 * y1^3 * x2 * y2^5 * d - 16 * x1 * y1 * x2^7
    * y2^5 * d^3 + 64 * x1 * y1 * x2^7 * y2^5 * d^2 - 48 * x1 * y1 * x2^7 * y2^5 * d + 8 * x1 * y1 * x2^7 * y2^3 * d^2
    - 56 * x1 * y1 * x2^7 * y2^3 * d + 48 * x1 * y1 * x2^7 * y2^3 + 8 * x1 * y1 * x2^7 * y2 * d - 8 * x1 * y1 * x2^7 *
    y2 - 16 * x1 * y1 * x2^5 * y2^7 * d^3 + 64 * x1 * y1 * x2^5 * y2^7 * d^2 - 48 * x1 * y1 * x2^5 * y2^7 * d + 32 *
    x1 * y1 * x2^5 * y2^5 * d^3 - 112 * x1 * y1 * x2^5 * y2^5 * d^2 - 16 * x1 * y1 * x2^5 * y2^5 * d + 96 * x1 * y1 *
    x2^5 * y2^5 - 32 * x1 * y1 * x2^5 * y2^3 * d^2 + 200 * x1 * y1 * x2^5 * y2^3 * d - 168 * x1 * y1 * x2^5 * y2^3 -
    24 * x1 * y1 * x2^5 * y2 * d + 24 * x1 * y1 * x2^5 * y2 + 8 * x1 * y1 * x2^3 * y2^7 * d^2 - 56 * x1 * y1 * x2^3 *
    y2^7 * d + 48 * x1 * y1 * x2^3 * y2^7 - 32 * x1 * y1 * x2^3 * y2^5 * d^2 + 200 * x1 * y1 * x2^3 * y2^5 * d - 168 *
    x1 * y1 * x2^3 * y2^5 + 64 * x1 * y1 * x2^3 * y2^3 * d^2 - 176 * x1 * y1 * x2^3 * y2^3 * d + 144 * x1 * y1 * x2^3
    * y2^3 - 16 * x1 * y1 * x2^3 * y2 + 8 * x1 * y1 * x2 * y2^7 * d - 8 * x1 * y1 * x2 * y2^7 - 24 * x1 * y1 * x2 *
    y2^5 * d + 24 * x1 * y1 * x2 * y2^5 - 16 * x1 * y1 * x2 * y2^3 + 2 * y1^6 * x2^8 * y2^4 * d^3 - 2 * y1^6 * x2^8 *
    y2^2 * d^2 - 2 * y1^6 * x2^6 * y2^4 * d^2 + 2 * y1^6 * x2^6 * y2^2 * d^2 - 2 * y1^6 * x2^4 * y2^8 * d^3 + 2 * y1^6
    * x2^4 * y2^6 * d^2 + 2 * y1^6 * x2^2 * y2^8 * d^2 - 2 * y1^6 * x2^2 * y2^6 * d^2 - 2 * y1^4 * x2^8 * y2^4 * d^3 +
    4 * y1^4 * x2^8 * y2^4 * d^2 + 2 * y1^4 * x2^8 * y2^2 * d^2 - 4 * y1^4 * x2^8 * y2^2 * d + 2 * y1^4 * x2^6 * y2^4
    * d^2 - 4 * y1^4 * x2^6 * y2^4 * d + 4 * y1^4 * x2^6 * y2^2 * d + 2 * y1^4 * x2^4 * y2^8 * d^3 - 4 * y1^4 * x2^4 *
    y2^8 * d^2 - 2 * y1^4 * x2^4 * y2^6 * d^2 + 4 * y1^4 * x2^4 * y2^6 * d - 2 * y1^4 * x2^2 * y2^8 * d^2 + 4 * y1^4 *
    x2^2 * y2^8 * d - 4 * y1^4 * x2^2 * y2^6 * d - 4 * y1^2 * x2^8 * y2^4 * d^2 + 4 * y1^2 * x2^8 * y2^4 * d + 4 *
    y1^2 * x2^8 * y2^2 * d - 4 * y1^2 * x2^8 * y2^2 + 4 * y1^2 * x2^6 * y2^4 * d - 4 * y1^2 * x2^6 * y2^4 - 2 * y1^2 *
    x2^6 * y2^2 * d + 4 * y1^2 * x2^6 * y2^2 - 2 * y1^2 * x2^6 + 4 * y1^2 * x2^4 * y2^8 * d^2 - 4 * y1^2 * x2^4 * y2^8
    * d - 4 * y1^2 * x2^4 * y2^6 * d + 4 * y1^2 * x2^4 * y2^6 - 2 * y1^2 * x2^4 * y2^2 + 2 * y1^2 * x2^4 - 4 * y1^2 *
    x2^2 * y2^8 * d + 4 * y1^2 * x2^2 * y2^8 + 2 * y1^2 * x2^2 * y2^6 * d - 4 * y1^2 * x2^2 * y2^6 + 2 * y1^2 * x2^2 *
    y2^4 + 2 * y1^2 * y2^6 - 2 * y1^2 * y2^4)) * h1 + (-(-2 * x1^8 * x2^6 * y2^2 * d^2 + 2 * x1^8 * x2^2 * y2^6 * d^2
    - 8 * x1^7 * y1 * x2^5 * y2^3 * d^2 - 4 * x1^7 * y1 * x2^5 * y2 * d^2 - 8 * x1^7 * y1 * x2^3 * y2^5 * d^2 + 8 *
    x1^7 * y1 * x2^3 * y2^3 * d^2 - 4 * x1^7 * y1 * x2 * y2^5 * d^2 + 4 * x1^6 * x2^6 * y2^2 * d^2 - 4 * x1^6 * x2^6 *
    y2^2 * d - 2 * x1^6 * x2^4 * d - 4 * x1^6 * x2^2 * y2^6 * d^2 + 4 * x1^6 * x2^2 * y2^6 * d + 2 * x1^6 * y2^4 * d +
    32 * x1^5 * y1 * x2^5 * y2^3 * d^2 - 24 * x1^5 * y1 * x2^5 * y2^3 * d + 4 * x1^5 * y1 * x2^5 * y2 * d^2 + 4 * x1^5
    * y1 * x2^5 * y2 * d + 32 * x1^5 * y1 * x2^3 * y2^5 * d^2 - 24 * x1^5 * y1 * x2^3 * y2^5 * d - 56 * x1^5 * y1 *
    x2^3 * y2^3 * d^2 + 56 * x1^5 * y1 * x2^3 * y2^3 * d - 8 * x1^5 * y1 * x2^3 * y2 * d + 4 * x1^5 * y1 * x2 * y2^5 *
    d^2 + 4 * x1^5 * y1 * x2 * y2^5 * d - 8 * x1^5 * y1 * x2 * y2^3 * d - 2 * x1^4 * x2^6 * y2^2 * d^2 + 8 * x1^4 *
    x2^6 * y2^2 * d - 4 * x1^4 * x2^6 * y2^2 + 2 * x1^4 * x2^4 * d - 2 * x1^4 * x2^4 + 2 * x1^4 * x2^2 * y2^6 * d^2 -
    8 * x1^4 * x2^2 * y2^6 * d + 4 * x1^4 * x2^2 * y2^6 - 2 * x1^4 * y2^4 * d + 2 * x1^4 * y2^4 - 40 * x1^3 * y1 *
    x2^5 * y2^3 * d^2 + 88 * x1^3 * y1 * x2^5 * y2^3 * d - 48 * x1^3 * y1 * x2^5 * y2^3 - 12 * x1^3 * y1 * x2^5 * y2 *
    d + 8 * x1^3 * y1 * x2^5 * y2 - 40 * x1^3 * y1 * x2^3 * y2^5 * d^2 + 88 * x1^3 * y1 * x2^3 * y2^5 * d - 48 * x1^3
    * y1 * x2^3 * y2^5 + 80 * x1^3 * y1 * x2^3 * y2^3 * d^2 - 200 * x1^3 * y1 * x2^3 * y2^3 * d + 112 * x1^3 * y1 *
    x2^3 * y2^3 + 24 * x1^3 * y1 * x2^3 * y2 * d - 16 * x1^3 * y1 * x2^3 * y2 - 12 * x1^3 * y1 * x2 * y2^5 * d + 8 *
    x1^3 * y1 * x2 * y2^5 + 24 * x1^3 * y1 * x2 * y2^3 * d - 16 * x1^3 * y1 * x2 * y2^3 + 16 * x1^3 * y1 * x2 * y2 * d
    - 4 * x1^2 * x2^6 * y2^2 * d + 4 * x1^2 * x2^6 * y2^2 + 2 * x1^2 * x2^4 + 4 * x1^2 * x2^2 * y2^6 * d - 4 * x1^2 *
    x2^2 * y2^6 - 2 * x1^2 * y2^4 - 8 * x1 * y1^7 * x2^5 * y2^3 * d^2 - 4 * x1 * y1^7 * x2^5 * y2 * d^2 - 8 * x1 *
    y1^7 * x2^3 * y2^5 * d^2 + 8 * x1 * y1^7 * x2^3 * y2^3 * d^2 - 4 * x1 * y1^7 * x2 * y2^5 * d^2 + 32 * x1 * y1^5 *
    x2^5 * y2^3 * d^2 - 24 * x1 * y1^5 * x2^5 * y2^3 * d + 4 * x1 * y1^5 * x2^5 * y2 * d^2 + 4 * x1 * y1^5 * x2^5 * y2
    * d + 32 * x1 * y1^5 * x2^3 * y2^5 * d^2 - 24 * x1 * y1^5 * x2^3 * y2^5 * d - 56 * x1 * y1^5 * x2^3 * y2^3 * d^2 +
    56 * x1 * y1^5 * x2^3 * y2^3 * d - 8 * x1 * y1^5 * x2^3 * y2 * d + 4 * x1 * y1^5 * x2 * y2^5 * d^2 + 4 * x1 * y1^5
    * x2 * y2^5 * d - 8 * x1 * y1^5 * x2 * y2^3 * d - 40 * x1 * y1^3 * x2^5 * y2^3 * d^2 + 88 * x1 * y1^3 * x2^5 *
    y2^3 * d - 48 * x1 * y1^3 * x2^5 * y2^3 - 12 * x1 * y1^3 * x2^5 * y2 * d + 8 * x1 * y1^3 * x2^5 * y2 - 40 * x1 *
    y1^3 * x2^3 * y2^5 * d^2 + 88 * x1 * y1^3 * x2^3 * y2^5 * d - 48 * x1 * y1^3 * x2^3 * y2^5 + 80 * x1 * y1^3 * x2^3
    * y2^3 * d^2 - 200 * x1 * y1^3 * x2^3 * y2^3 * d + 112 * x1 * y1^3 * x2^3 * y2^3 + 24 * x1 * y1^3 * x2^3 * y2 * d
    - 16 * x1 * y1^3 * x2^3 * y2 - 12 * x1 * y1^3 * x2 * y2^5 * d + 8 * x1 * y1^3 * x2 * y2^5 + 24 * x1 * y1^3 * x2 *
    y2^3 * d - 16 * x1 * y1^3 * x2 * y2^3 + 16 * x1 * y1^3 * x2 * y2 * d + 16 * x1 * y1 * x2^5 * y2^3 * d^2 - 64 * x1
    * y1 * x2^5 * y2^3 * d + 48 * x1 * y1 * x2^5 * y2^3 + 8 * x1 * y1 * x2^5 * y2 * d - 8 * x1 * y1 * x2^5 * y2 + 16 *
    x1 * y1 * x2^3 * y2^5 * d^2 - 64 * x1 * y1 * x2^3 * y2^5 * d + 48 * x1 * y1 * x2^3 * y2^5 - 32 * x1 * y1 * x2^3 *
    y2^3 * d^2 + 144 * x1 * y1 * x2^3 * y2^3 * d - 112 * x1 * y1 * x2^3 * y2^3 - 16 * x1 * y1 * x2^3 * y2 * d + 16 *
    x1 * y1 * x2^3 * y2 + 8 * x1 * y1 * x2 * y2^5 * d - 8 * x1 * y1 * x2 * y2^5 - 16 * x1 * y1 * x2 * y2^3 * d + 16 *
    x1 * y1 * x2 * y2^3 - 32 * x1 * y1 * x2 * y2 * d + 2 * y1^8 * x2^6 * y2^2 * d^2 - 2 * y1^8 * x2^2 * y2^6 * d^2 - 4
    * y1^6 * x2^6 * y2^2 * d^2 + 4 * y1^6 * x2^6 * y2^2 * d + 2 * y1^6 * x2^4 * d + 4 * y1^6 * x2^2 * y2^6 * d^2 - 4 *
    y1^6 * x2^2 * y2^6 * d - 2 * y1^6 * y2^4 * d + 2 * y1^4 * x2^6 * y2^2 * d^2 - 8 * y1^4 * x2^6 * y2^2 * d + 4 *
    y1^4 * x2^6 * y2^2 - 2 * y1^4 * x2^4 * d + 2 * y1^4 * x2^4 - 2 * y1^4 * x2^2 * y2^6 * d^2 + 8 * y1^4 * x2^2 * y2^6
    * d - 4 * y1^4 * x2^2 * y2^6 + 2 * y1^4 * y2^4 * d - 2 * y1^4 * y2^4 + 4 * y1^2 * x2^6 * y2^2 * d - 4 * y1^2 *
    x2^6 * y2^2 - 2 * y1^2 * x2^4 - 4 * y1^2 * x2^2 * y2^6 * d + 4 * y1^2 * x2^2 * y2^6 + 2 * y1^2 * y2^4)) * h2

end Ed448
