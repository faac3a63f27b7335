import Verif.Model.Rust
import Verif.Spec.Bytes

/-!
# Direct-secret keys from numbers

The model is imported for the type of arrays.
-/

namespace Ed448

/-- The direct-secret key with the number `n` in its first 56 bytes. -/
def secretForm (n : ℕ) : Arr (BitVec 8) 57 := ⟨leBytes 56 n ++ [0x80#8], rfl⟩

end Ed448
