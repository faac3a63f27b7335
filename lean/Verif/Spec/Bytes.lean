import Mathlib.Data.Nat.Notation

/-!
# Little-endian byte strings
-/

namespace Ed448

/-- The number with the given little-endian bytes. -/
def leNat : List (BitVec 8) → ℕ
  | [] => 0
  | b :: bs => b.toNat + 256 * leNat bs

/-- The `k` least significant bytes of a number, least significant first. -/
def leBytes : ℕ → ℕ → List (BitVec 8)
  | 0, _ => []
  | k + 1, v => BitVec.ofNat 8 v :: leBytes k (v / 256)

end Ed448
