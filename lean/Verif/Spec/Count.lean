import Verif.Spec.Rfc8032

/-!
# Changing a hash function on one string

To speak about the distribution of keys and signatures over the outputs of a hash function, without assuming anything about the function: fix the
function, change its output on one string to `h`, and count the `h` with a given effect.
-/

namespace Ed448

/-- The hash function `shake` changed on the one string `s`, where its output is now `h` (followed by zeros). -/
def reprogram (shake : List (BitVec 8) → ℕ → BitVec 8) (s : List (BitVec 8)) (h : Fin 114 → BitVec 8) : List (BitVec 8) → ℕ → BitVec 8 :=
  fun t i => if t = s then (if hi : i < 114 then h ⟨i, hi⟩ else 0) else shake t i

end Ed448
