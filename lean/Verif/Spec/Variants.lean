import Verif.Spec.Verify

/-!
# The variants of Ed448 in RFC 8032: contexts and Ed448ph (sections 2, 5.2 and 5.2.7)
-/

namespace Ed448.RFC

/-- `dom4(f, c)`, section 2: the string "SigEd448", the octet `f` (0 for Ed448, 1 for Ed448ph), the length of the context `c` in one octet, and `c`. -/
def domOf (f : BitVec 8) (c : List (BitVec 8)) : List (BitVec 8) :=
  "SigEd448".toList.map (fun c => BitVec.ofNat 8 c.toNat) ++ [f, BitVec.ofNat 8 c.length] ++ c

/-- Section 5.2: `PH(m)` is `m` for Ed448, and the first 64 bytes of SHAKE256 of `m` for Ed448ph. -/
def preHash (shake : List (BitVec 8) → ℕ → BitVec 8) (f : BitVec 8) (m : List (BitVec 8)) : List (BitVec 8) :=
  if f = 1 then hash shake m 64 else m

/-- The challenge, for the flag `f` and the context `c`. -/
def challengeOf (shake : List (BitVec 8) → ℕ → BitVec 8) (f : BitVec 8) (c R A m : List (BitVec 8)) : ℕ :=
  leNat (hash shake (domOf f c ++ R ++ A ++ preHash shake f m) 114)

/-- Section 5.2.7, for the flag `f` and the context `c`. -/
def ValidOf (shake : List (BitVec 8) → ℕ → BitVec 8) (f : BitVec 8) (c pk m sig : List (BitVec 8)) : Prop :=
  sig.length = 114 ∧ ∃ A R : E, DecodesTo pk A ∧ DecodesTo (sig.take 57) R ∧ leNat (sig.drop 57) < q ∧
    Equation (leNat (sig.drop 57)) R A (challengeOf shake f c (sig.take 57) pk m)

end Ed448.RFC
