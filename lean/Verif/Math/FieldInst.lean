import Verif.Spec.Field
import Verif.Math.Prime
import Verif.Math.Isogeny
import Mathlib.NumberTheory.LegendreSymbol.QuadraticReciprocity

/-!
# `ZMod p` is a field, and the quadratic characters of the curve constants
-/

set_option exponentiation.threshold 1000

namespace Ed448

theorem p_def : p = 2 ^ 448 - 2 ^ 224 - 1 := by unfold p; rfl

instance fact_p_prime : Fact (Nat.Prime p) := ⟨by rw [p_def]; exact prime_p⟩

instance : NeZero p := ⟨(fact_p_prime.out).ne_zero⟩

/-- Two numbers with the same remainder modulo p are the same field element. -/
theorem cast_eq_of_mod {a b : ℕ} (h : a % (2 ^ 448 - 2 ^ 224 - 1) = b % (2 ^ 448 - 2 ^ 224 - 1)) :
    (a : F) = (b : F) := by
  rw [ZMod.natCast_eq_natCast_iff', p_def]
  exact h

theorem cast_ne_of_mod {a b : ℕ} (h : a % (2 ^ 448 - 2 ^ 224 - 1) ≠ b % (2 ^ 448 - 2 ^ 224 - 1)) :
    (a : F) ≠ (b : F) := by
  rw [Ne, ZMod.natCast_eq_natCast_iff', p_def]
  exact h

theorem F_neg_one_nonsquare : ¬ IsSquare (-1 : F) := by
  rw [ZMod.exists_sq_eq_neg_one_iff, p_def]
  norm_num

theorem F_two_ne_zero : (2 : F) ≠ 0 := by
  have := cast_ne_of_mod (a := 2) (b := 0) (by decide +kernel)
  simpa using this

theorem sqrt_39081 : (627894490647874670780146803011075515225223784391788159207390309582568626050729514829594252134780030556161172229750791477826575600769225 : F) ^ 2 = 39081 := by
  have := cast_eq_of_mod (a := 627894490647874670780146803011075515225223784391788159207390309582568626050729514829594252134780030556161172229750791477826575600769225 ^ 2) (b := 39081) (by decide +kernel)
  rw [Nat.cast_pow] at this
  simpa only [Nat.cast_ofNat] using this

theorem sqrt_neg_39082 : (53931230830471128485834955405575080614406917727690396148695844614693367092499110851330350603979079659962871539650022903565748232560454 : F) ^ 2 + 39082 = 0 := by
  have := cast_eq_of_mod (a := 53931230830471128485834955405575080614406917727690396148695844614693367092499110851330350603979079659962871539650022903565748232560454 ^ 2 + 39082) (b := 0) (by decide +kernel)
  rw [Nat.cast_add, Nat.cast_pow] at this
  simpa only [Nat.cast_ofNat, Nat.cast_zero] using this

end Ed448
