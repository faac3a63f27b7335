import Verif.Eddsa.Verify

/-!
# Encodings of points as inputs of the decoder, and concrete points
-/

set_option exponentiation.threshold 1000

namespace Ed448

theorem encodePoint_length (A : E) : (encodePoint A).length = 57 := by simp [encodePoint]

theorem yNat_encode (A : E) : yNat (encodePoint A) = A.y.val := by
  rw [yNat, encodePoint_split, List.take_left' (by simp), leNat_leBytes]
  refine Nat.mod_eq_of_lt ?_
  have h1 := ZMod.val_lt A.y
  have h2 := p_lt
  omega

theorem encode_getD (A : E) : ((encodePoint A).getD 56 0).toNat = 128 * (A.x.val % 2) := by
  rw [encodePoint_split, List.getD_eq_getElem?_getD, List.getElem?_append_right (by simp)]
  simp only [leBytes_length, Nat.sub_self]
  rcases Nat.mod_two_eq_zero_or_one A.x.val with h | h <;> rw [h] <;> rfl

theorem signBit_encode (A : E) : signBit (encodePoint A) = A.x.val % 2 := by
  rw [signBit, encode_getD]; omega

theorem padBits_encode (A : E) : padBits (encodePoint A) = 0 := by
  rw [padBits, encode_getD]; omega

theorem decodes_encode (A : E) : Decodes (encodePoint A) A := by
  refine ⟨?_, Or.inr (signBit_encode A).symm⟩
  rw [yNat_encode, ZMod.natCast_zmod_val]

/-- The canonical encodings that the code accepts. -/
theorem accepted_encode (A : E) : Accepted (encodePoint A) ↔ PassesCheck A.y.val ∧ ¬ LowZero (imageZ A.x A.y) := by
  rw [accepted_iff_of_point (decodes_encode A), yNat_encode, padBits_encode]
  simp [encodePoint_length]

/-- Clearing the small-order component does nothing to multiples of the base point. -/
theorem cleared_smul_B (n : ℕ) : (q + 1) • (n • B) = n • B := by
  rw [add_smul, smul_comm q n B, q_smul_B, smul_zero, zero_add, one_smul]

theorem cleared_torsion {T : E} (h : 4 • T = 0) : (q + 1) • T = 0 := by
  have h2 := q_mod_four
  rw [show q + 1 = (q + 1) / 4 * 4 by omega, mul_smul, h, smul_zero]

/-- The multiples of the base point are not encoded by zeros. -/
theorem encode_smul_B_ne_zero (n : ℕ) : encodePoint (n • B) ≠ List.replicate 57 0 := by
  intro h
  have h1 := decodes_encode (n • B)
  rw [h] at h1
  have hy : (n • B).y = 0 := by
    rw [h1.1, show yNat (List.replicate 57 0) = 0 by decide +kernel, Nat.cast_zero]
  have h4 : 4 • (n • B) = 0 := (Edw.four_eq_zero_iff _).mpr ((Edw.phiX_eq_zero_iff _).mpr (Or.inr hy))
  have h5 := cleared_torsion h4
  rw [cleared_smul_B] at h5
  rw [h5, Edw.zero_y] at hy
  exact one_ne_zero hy

/-! ### Concrete points -/

/-- A multiple of the base point from its coordinates. -/
def isMultiple (n x y : ℕ) : Bool :=
  let P := pmul pB 460 n
  Nat.ble (n + 1) (2 ^ 460) && Nat.beq (x * P.2.2 % pN) (P.1 % pN) && Nat.beq (y * P.2.2 % pN) (P.2.1 % pN)

theorem isMultiple_coords {n x y : ℕ} (h : isMultiple n x y = true) : (n • B).x = (x : F) ∧ (n • B).y = (y : F) := by
  simp only [isMultiple, Bool.and_eq_true, Nat.ble_eq, Nat.beq_eq] at h
  obtain ⟨⟨h1, h2⟩, h3⟩ := h
  obtain ⟨g1, g2, g3⟩ := pmul_rep pB_rep 460 n h1
  have key : ∀ a b : ℕ, a % pN = b % pN → (a : F) = (b : F) := fun a b hab => by
    rw [← cast_mod_pN a, hab, cast_mod_pN]
  have k2 := key _ _ h2
  have k3 := key _ _ h3
  rw [Nat.cast_mul] at k2 k3
  exact ⟨mul_right_cancel₀ g1 (g2.trans k2.symm), mul_right_cancel₀ g1 (g3.trans k3.symm)⟩

/-- `LowZero` on numbers. -/
theorem lowZero_cast (n : ℕ) : LowZero (n : F) ↔ n % pN % 2 ^ 420 = 0 := by
  rw [LowZero, ZMod.val_natCast, pN_eq]

/-- `imageZ` on numbers. -/
def imageZN (x y : ℕ) : ℕ :=
  (y * y + (pN - x * x % pN)) * (2 + (pN - x * x % pN) + (pN - y * y % pN))

theorem imageZ_cast (x y : ℕ) : imageZ (x : F) (y : F) = ((imageZN x y : ℕ) : F) := by
  unfold imageZN imageZ
  simp only [Nat.cast_mul, Nat.cast_add, cast_sub_mod]
  push_cast
  ring

theorem val_cast_lt {n : ℕ} (h : n < pN) : (n : F).val = n := by
  rw [ZMod.val_natCast, ← pN_eq, Nat.mod_eq_of_lt h]

/-- Is the canonical encoding of the point with the coordinates `x`, `y` accepted? -/
def acceptedN (x y : ℕ) : Bool :=
  !Nat.beq (checkCarry (baseDigits 16 y) checkWords 0) 0 && !Nat.beq (imageZN x y % pN % 2 ^ 420) 0

theorem accepted_of_coords {A : E} {x y : ℕ} (hx : A.x = (x : F)) (hy : A.y = (y : F)) (hl : y < pN) :
    Accepted (encodePoint A) ↔ acceptedN x y = true := by
  rw [accepted_encode, hx, hy, imageZ_cast, lowZero_cast, val_cast_lt hl, PassesCheck, acceptedN]
  simp only [Bool.and_eq_true, Bool.not_eq_true', ← Bool.not_eq_true, Nat.beq_eq]

theorem encode_of_coords {A : E} {x y : ℕ} (hx : A.x = (x : F)) (hy : A.y = (y : F)) (hxl : x < pN) (hyl : y < pN) :
    encodePoint A = leBytes 57 (y + 2 ^ 455 * (x % 2)) := by
  rw [encodePoint, hx, hy, val_cast_lt hxl, val_cast_lt hyl]

end Ed448
