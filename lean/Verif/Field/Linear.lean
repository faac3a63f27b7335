import Verif.Field.Mul

/-!
# Squaring, addition, subtraction, multiplication by small constants, selection
-/

namespace Ed448

theorem BN.Red.mb {n : BN} (h : n.Red) : n.Lt MB := h.mono (by norm_num [RB, MB])

theorem square_spec {a : BN} (ha : a.Lt MB) : (square a).toF = a.toF * a.toF ∧ (square a).Red := by
  rw [show square a = mul a a from karatsuba_square_eq a]
  exact mul_spec ha ha

theorem weak_red {n : BN} (h : n.Lt (2 ^ 28 + 16)) : n.Red := h.mono (by norm_num [RB])

theorem add_raw_spec {a b : BN} {A B : ℕ} (ha : a.Lt A) (hb : b.Lt B) (hAB : A + B ≤ 2 ^ 32) :
    (add_raw a b).toF = a.toF + b.toF ∧ (add_raw a b).Lt (A + B) := by
  obtain ⟨ha0, ha1, ha2, ha3, ha4, ha5, ha6, ha7, ha8, ha9, ha10, ha11, ha12, ha13, ha14, ha15⟩ := ha
  obtain ⟨hb0, hb1, hb2, hb3, hb4, hb5, hb6, hb7, hb8, hb9, hb10, hb11, hb12, hb13, hb14, hb15⟩ := hb
  have key : ∀ x y : W32, x.toNat < A → y.toNat < B → (x + y).toNat = x.toNat + y.toNat :=
    fun x y hx hy => add_toNat x y (by omega)
  simp only [add_raw, BN.map2, BN.toF_eq, BN.ev, BN.Lt, key _ _ ha0 hb0, key _ _ ha1 hb1, key _ _ ha2 hb2,
    key _ _ ha3 hb3, key _ _ ha4 hb4, key _ _ ha5 hb5, key _ _ ha6 hb6, key _ _ ha7 hb7,
    key _ _ ha8 hb8, key _ _ ha9 hb9, key _ _ ha10 hb10, key _ _ ha11 hb11, key _ _ ha12 hb12,
    key _ _ ha13 hb13, key _ _ ha14 hb14, key _ _ ha15 hb15, Nat.cast_add]
  constructor
  · ring
  · refine ⟨?_, ?_, ?_, ?_, ?_, ?_, ?_, ?_, ?_, ?_, ?_, ?_, ?_, ?_, ?_, ?_⟩ <;> omega

theorem add_raw_red {a b : BN} (ha : a.Red) (hb : b.Red) :
    (add_raw a b).toF = a.toF + b.toF ∧ (add_raw a b).Lt MB :=
  ⟨(add_raw_spec ha hb (by norm_num [RB])).1,
    (add_raw_spec ha hb (by norm_num [RB])).2.mono (by norm_num [RB, MB])⟩

theorem add_spec {a b : BN} (ha : a.Red) (hb : b.Red) :
    (add a b).toF = a.toF + b.toF ∧ (add a b).Red := by
  obtain ⟨h1, h2⟩ := add_raw_red ha hb
  have := weak_reduce_spec (add_raw a b) (by
    have := h2.2.2.2.2.2.2.2.2.1; simp only [MB] at this; omega)
  exact ⟨this.1.trans h1, weak_red this.2⟩

/-- The multiple of `p` added by `bias` vanishes in the field. -/
theorem bias_poly {R : Type} [CommRing R] (t : R) (ht : t ^ 16 = t ^ 8 + 1) :
    (t - 1) * (1 + t + t ^ 2 + t ^ 3 + t ^ 4 + t ^ 5 + t ^ 6 + t ^ 7 + t ^ 9 + t ^ 10 + t ^ 11 +
      t ^ 12 + t ^ 13 + t ^ 14 + t ^ 15) + (t - 2) * t ^ 8 = 0 := by
  linear_combination ht

/-- Subtraction with a bias of `k` times the modulus: the limbs of the subtrahend may be almost `k * 2^28`. -/
theorem sub_x_bias_spec {a b : BN} {A B k : ℕ} (ha : a.Lt A) (hb : b.Lt B)
    (hk : k = 2 ∨ k = 3 ∨ k = 4) (hB : B + 2 * k ≤ k * 2 ^ 28) (hA : A + k * 2 ^ 28 ≤ 2 ^ 32 - 16) :
    (sub_x_bias a b (BitVec.ofNat 32 k)).toF = a.toF - b.toF ∧
      (sub_x_bias a b (BitVec.ofNat 32 k)).Red := by
  obtain ⟨ha0, ha1, ha2, ha3, ha4, ha5, ha6, ha7, ha8, ha9, ha10, ha11, ha12, ha13, ha14, ha15⟩ := ha
  obtain ⟨hb0, hb1, hb2, hb3, hb4, hb5, hb6, hb7, hb8, hb9, hb10, hb11, hb12, hb13, hb14, hb15⟩ := hb
  have hco1 : (RADIX_MASK * BitVec.ofNat 32 k).toNat = k * (2 ^ 28 - 1) := by
    rcases hk with rfl | rfl | rfl <;> rfl
  have hco2 : (RADIX_MASK * BitVec.ofNat 32 k - BitVec.ofNat 32 k).toNat = k * (2 ^ 28 - 2) := by
    rcases hk with rfl | rfl | rfl <;> rfl
  have key : ∀ x y : W32, x.toNat < A → y.toNat < B →
      (x - y + RADIX_MASK * BitVec.ofNat 32 k).toNat = x.toNat + (k * (2 ^ 28 - 1) - y.toNat) := by
    intro x y hx hy
    rw [BitVec.toNat_add, BitVec.toNat_sub, hco1]
    omega
  have key8 : (a.l8 - b.l8 + (RADIX_MASK * BitVec.ofNat 32 k - BitVec.ofNat 32 k)).toNat =
      a.l8.toNat + (k * (2 ^ 28 - 2) - b.l8.toNat) := by
    rw [BitVec.toNat_add, BitVec.toNat_sub, hco2]
    omega
  have hw := weak_reduce_spec (bias (sub_raw a b) (BitVec.ofNat 32 k)) (by
    simp only [bias, sub_raw, BN.map2, key8]; omega)
  refine ⟨?_, weak_red hw.2⟩
  rw [show sub_x_bias a b (BitVec.ofNat 32 k) = weak_reduce (bias (sub_raw a b) (BitVec.ofNat 32 k))
    from rfl, hw.1]
  have cst : ∀ x y : ℕ, y < B → ((x + (k * (2 ^ 28 - 1) - y) : ℕ) : F) =
      (x : F) + ((k : F) * (2 ^ 28 - 1) - y) := by
    intro x y hy
    rw [Nat.cast_add, Nat.cast_sub (by omega), Nat.cast_mul, Nat.cast_sub (by norm_num), Nat.cast_pow,
      Nat.cast_one, Nat.cast_two]
  have cst8 : ((a.l8.toNat + (k * (2 ^ 28 - 2) - b.l8.toNat) : ℕ) : F) =
      (a.l8.toNat : F) + ((k : F) * (2 ^ 28 - 2) - b.l8.toNat) := by
    rw [Nat.cast_add, Nat.cast_sub (by omega), Nat.cast_mul, Nat.cast_sub (by norm_num), Nat.cast_pow,
      Nat.cast_two]
  simp only [bias, sub_raw, BN.map2, BN.toF_eq, BN.ev, key8, cst8,
    key _ _ ha0 hb0, key _ _ ha1 hb1, key _ _ ha2 hb2,
    key _ _ ha3 hb3, key _ _ ha4 hb4, key _ _ ha5 hb5, key _ _ ha6 hb6, key _ _ ha7 hb7,
    key _ _ ha9 hb9, key _ _ ha10 hb10, key _ _ ha11 hb11, key _ _ ha12 hb12,
    key _ _ ha13 hb13, key _ _ ha14 hb14, key _ _ ha15 hb15,
    cst _ _ hb0, cst _ _ hb1, cst _ _ hb2, cst _ _ hb3, cst _ _ hb4, cst _ _ hb5, cst _ _ hb6,
    cst _ _ hb7, cst _ _ hb9, cst _ _ hb10, cst _ _ hb11, cst _ _ hb12, cst _ _ hb13, cst _ _ hb14,
    cst _ _ hb15]
  have hp := bias_poly _ t16
  generalize (2 : F) ^ 28 = t at *
  linear_combination (k : F) * hp

theorem sub_spec' {a b : BN} (ha : a.Lt MB) (hb : b.Red) :
    (sub a b).toF = a.toF - b.toF ∧ (sub a b).Red :=
  sub_x_bias_spec (k := 2) ha hb (by simp) (by norm_num [RB]) (by norm_num [MB])

theorem sub_spec {a b : BN} (ha : a.Red) (hb : b.Red) :
    (sub a b).toF = a.toF - b.toF ∧ (sub a b).Red := sub_spec' ha.mb hb

theorem neg_eq (a : BN) : neg a = sub BIG_ZERO a := rfl

theorem neg_spec {a : BN} (ha : a.Red) : (neg a).toF = - a.toF ∧ (neg a).Red := by
  have := sub_spec red_zero ha
  rw [toF_zero, zero_sub] at this
  exact this

end Ed448
