import Verif.Spec.Curve

/-!
# The strings for points of order 1, 2 and 4
-/

namespace Ed448

/-- The ten strings of 57 bytes with one of the numbers 0, 1, p - 1, p, p + 1 in the first 56 bytes and 0 or 0x80 in the last byte. -/
def weakKeys : List (List (BitVec 8)) :=
  [0, 1, p - 1, p, p + 1].flatMap fun y => [leBytes 56 y ++ [0x00#8], leBytes 56 y ++ [0x80#8]]

end Ed448
