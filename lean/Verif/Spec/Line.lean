import Verif.Spec.Owner
import Verif.Model.Goldilocks

/-!
# A line with errors

A public key, a message and a signature are sent over a line, or kept on a disk, and some bits are changed. Nobody does this on purpose: the errors do not depend on
the hash function.
-/

namespace Ed448

/-- The bits of `l` for which the bit of `e` is set are changed. -/
def garble (e l : List (BitVec 8)) : List (BitVec 8) := List.zipWith (· ^^^ ·) e l

/-- `n` bytes without errors. -/
def noError (n : ℕ) : List (BitVec 8) := List.replicate n 0

/-- The library makes the public key of `k` and the signature of `m`. They arrive with the errors `eA` and `eS`, and with the message `m'`. What arrives counts as a
signature all the same. `Ok shake pk m sig` says that a signature counts. Keys of small order are left out: with them everything may count (C42, C103). -/
def Unnoticed (Ok : (List (BitVec 8) → ℕ → BitVec 8) → List (BitVec 8) → List (BitVec 8) → List (BitVec 8) → Prop) (k : Arr Byte 57) (m m' eA eS : List (BitVec 8))
    (shake : List (BitVec 8) → ℕ → BitVec 8) : Prop :=
  ∃ pk sig, ed448_derive_public shake k = .ok pk ∧ ed448_sign shake k m = .ok sig ∧ ¬ SmallOrder (garble eA pk.1) ∧ Ok shake (garble eA pk.1) m' (garble eS sig.1)

/-- The bits in which two numbers differ are among `w` bits in a row. -/
def Burst (w S S' : ℕ) : Prop := ∃ i, ∀ j, j < i ∨ i + w ≤ j → S.testBit j = S'.testBit j

end Ed448
