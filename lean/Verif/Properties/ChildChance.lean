import Verif.Properties.Child
import Verif.Properties.Distinct

/-!
# C111, the chance that a random key has no child
-/

namespace Ed448

set_option exponentiation.threshold 1000

/-- C111. For a random private key and a random hash function, the chance that adding a multiple of four does not give the expected child is at most the number
divided by 2^447. -/
theorem C111_chance (δ : ℕ) (h4 : 4 ∣ δ) (hδ : δ < 2 ^ 447) (L : ℕ) (hL : 57 ≤ L) :
    chance {x : (Fin 57 → Byte) × (Short L → Out) | ∃ A A', ed448_derive_public (hashOf x.2) (keyOf x.1) = .ok A ∧
      ed448_derive_public (hashOf x.2) (secretForm (keyScalar (hashOf x.2) (keyOf x.1).1 + δ)) = .ok A' ∧
      ¬ ∃ P : E, RFC.DecodesTo A.1 P ∧ RFC.DecodesTo A'.1 (P + δ • B)} ≤ δ / 2 ^ 447 := by
  have hS : (((Finset.range (δ / 4)).image fun j => (2 ^ 448 - 4 * (j + 1)) % q).card : ℚ) * (1 / 2 ^ 445) ≤ δ / 2 ^ 447 := by
    have h : (((Finset.range (δ / 4)).image fun j => (2 ^ 448 - 4 * (j + 1)) % q).card : ℚ) ≤ (δ / 4 : ℕ) :=
      Nat.cast_le.mpr (Finset.card_image_le.trans (Finset.card_range _).le)
    refine (mul_le_mul_of_nonneg_right h (by positivity)).trans (le_of_eq ?_)
    rw [Nat.cast_div h4 (by norm_num)]
    push_cast
    ring
  refine (chance_imp ?_).trans ((chance_keyScalar hL _).trans hS)
  rintro ⟨k, f⟩ ⟨A, A', h1, h2, h3⟩
  obtain ⟨_, a1, a2⟩ := derive_spec (hashOf f) (keyOf k)
  obtain rfl := Except.ok.inj (h1.symm.trans a1)
  have hP := decodesTo_iff.mpr a2
  have h5 := Nat.le_of_not_lt fun h => h3 ⟨_, hP, (C111_child (hashOf f) (keyOf k) A A' _ δ (by omega) h1 hP h2).mpr ⟨h4, h⟩⟩
  obtain ⟨r1, r2, r3⟩ := keyScalar_range (hashOf f) (keyOf k).1
  refine Finset.mem_image.mpr ⟨(2 ^ 448 - keyScalar (hashOf f) (keyOf k).1) / 4 - 1, Finset.mem_range.mpr (by omega), ?_⟩
  show _ = keyScalar (hashOf f) (keyOf k).1 % q
  congr 1
  omega

/-- Numbers as wallets use them: 28 bytes, times eight. -/
example : 4 ∣ 8 * (2 ^ 224 - 1) ∧ 8 * (2 ^ 224 - 1) < 2 ^ 447 ∧ ((8 * (2 ^ 224 - 1) : ℕ) : ℚ) / 2 ^ 447 < 1 / 2 ^ 220 := by norm_num

end Ed448
