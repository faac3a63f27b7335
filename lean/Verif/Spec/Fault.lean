import Verif.Model.Fault
import Verif.Spec.Verify

/-!
# The numbers in a signature that was made while the memory was disturbed

The model is imported for the type of faults.
-/

namespace Ed448

/-- 114 bytes of output of the hash function for a string with the prefix of Ed448. -/
def digestOf (shake : List (BitVec 8) → ℕ → BitVec 8) (msg : List (BitVec 8)) : Arr (BitVec 8) 114 :=
  ⟨RFC.hash shake (RFC.dom4 ++ msg) 114, by simp [RFC.hash]⟩

/-- The nonce that is used when the bytes hashed for it are `pre` and `m`. -/
def Faults.nonceUsed (φ : Faults) (shake : List (BitVec 8) → ℕ → BitVec 8) (pre m : List (BitVec 8)) : ℕ := leNat (φ.nonce (digestOf shake (pre ++ m))).1

/-- The challenge that is used for the public key `A` when the first half of the signature is `R`. -/
def Faults.challengeUsed (φ : Faults) (shake : List (BitVec 8) → ℕ → BitVec 8) (R : List (BitVec 8)) (A : Arr (BitVec 8) 57) (m : List (BitVec 8)) : ℕ :=
  leNat (φ.challenge (digestOf shake (R ++ (φ.pub A).1 ++ m))).1

/-- The secret scalar that is used instead of `s`. -/
def Faults.scalarUsed (φ : Faults) (s : ℕ) : ℕ := leNat (φ.key ⟨leBytes 57 s, rfl⟩).1

/-- The fault that flips bit `n` of the secret scalar. -/
def Faults.flip (n : ℕ) : Faults := { Faults.none with key := fun l => ⟨leBytes 57 (leNat l.1 ^^^ 2 ^ n), rfl⟩ }

end Ed448
