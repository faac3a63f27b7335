import Mathlib.Data.ZMod.Basic

/-!
# The base field of Ed448 (RFC 8032, section 5.2)
-/

namespace Ed448

/-- The field prime `p = 2^448 - 2^224 - 1`. -/
@[irreducible] def p : ℕ := 2 ^ 448 - 2 ^ 224 - 1

/-- The integers modulo `p`. That `p` is prime, so that this is a field, is proved in Verif/Math/Prime.lean. -/
abbrev F := ZMod p

end Ed448
