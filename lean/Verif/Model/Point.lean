import Verif.Model.BigNumber

/-!
# Point types: src/extended_point.rs:15-50
-/

namespace Ed448

/-- `TwistedExtendedPoint`, src/extended_point.rs:30-36. -/
structure Pt where
  (x y z t : BN)
  deriving DecidableEq, Repr

/-- `TwistedNiels`, src/extended_point.rs:38-43. -/
structure TwistedNiels where
  (a b c : BN)
  deriving DecidableEq, Repr

/-- `TwistedProjectedNiels`, src/extended_point.rs:45-49. -/
structure PNiels where
  n : TwistedNiels
  z : BN
  deriving DecidableEq, Repr

/-- `SmvtControl`, src/extended_point.rs:15-19. -/
structure SmvtControl where
  power : Int
  addend : Int
  deriving DecidableEq, Repr

end Ed448
