import Verif.Algo.Defs
import Verif.Math.Projective

/-!
# Natural numbers modulo p as a type of numbers
-/

namespace Ed448.Alg

/-- Natural numbers, reduced modulo p by every operation. -/
def Zp : Type := ℕ

instance : Num Zp where
  add a b := Nat.mod (Nat.add a b) pN
  sub a b := Nat.mod (Nat.add a (Nat.sub pN (Nat.mod b pN))) pN
  mul a b := Nat.mod (Nat.mul a b) pN
  nat n := Nat.mod n pN
  val a := Nat.mod a pN
  strict a k := Nat.casesOn a (k (0 : ℕ)) (fun n => k (Nat.succ n))

end Ed448.Alg
