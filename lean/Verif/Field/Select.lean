import Verif.Field.Pow

/-!
# Masks, conditional operations, comparison
-/

namespace Ed448

theorem is_zero_mask_spec (n : W32) : is_zero_mask n = if n = 0 then BitVec.allOnes 32 else 0 := by
  unfold is_zero_mask
  split
  · next h => subst h; rfl
  · next h =>
    have hn : n.toNat ≠ 0 := fun h' => h (BitVec.eq_of_toNat_eq (by simpa using h'))
    have := n.isLt
    have h1 : (@OfNat.ofNat (BitVec 64) 1 BitVec.instOfNat).toNat = 1 := rfl
    have h0 : (0 : W32).toNat = 0 := rfl
    apply BitVec.eq_of_toNat_eq
    simp only [lo32, u64, BitVec.toNat_setWidth, BitVec.toNat_ushiftRight, BitVec.toNat_sub,
      Nat.shiftRight_eq_div_pow, h0]
    rw [h1]
    norm_num
    omega

/-- All ones or zero. -/
def maskOf (b : Bool) : W32 := if b then BitVec.allOnes 32 else 0

theorem map2_id_left (f : W32 → W32 → W32) (h : ∀ a b, f a b = a) (x y : BN) : BN.map2 f x y = x := by
  simp [BN.map2, h]

theorem map2_id_right (f : W32 → W32 → W32) (h : ∀ a b, f a b = b) (x y : BN) : BN.map2 f x y = y := by
  simp [BN.map2, h]

theorem conditional_swap_spec (n x : BN) (b : Bool) :
    conditional_swap n x (maskOf b) = if b then (x, n) else (n, x) := by
  have e1 : ∀ a b : W32, a ^^^ (b ^^^ a) = b := fun a b => by
    rw [BitVec.xor_comm b a, ← BitVec.xor_assoc, BitVec.xor_self, BitVec.zero_xor]
  have e2 : ∀ a b : W32, a ^^^ (a ^^^ b) = b := fun a b => by
    rw [← BitVec.xor_assoc, BitVec.xor_self, BitVec.zero_xor]
  cases b
  · simp [conditional_swap, maskOf, BN.map2]
  · have e3 : ∀ a : W32, a &&& BitVec.allOnes 32 = a := fun a => BitVec.and_allOnes
    simp only [conditional_swap, maskOf, BN.map2, e1, e2, e3, if_true]

theorem conditional_negate_spec (n : BN) (b : Bool) :
    conditional_negate n (maskOf b) = if b then neg n else n := by
  rw [conditional_negate, constant_time_select, conditional_swap_spec]
  cases b <;> rfl

theorem decaf_cond_negate_spec (n : BN) (b : Bool) :
    decaf_cond_negate n (maskOf b) = if b then neg n else n := by
  have e3 : ∀ a : W32, a &&& BitVec.allOnes 32 = a := fun a => BitVec.and_allOnes
  have e4 : ~~~(0 : W32) = BitVec.allOnes 32 := rfl
  have e5 : ~~~(BitVec.allOnes 32) = (0 : W32) := rfl
  have e6 : ∀ a : W32, a &&& 0 = 0 := fun a => BitVec.and_zero
  have e7 : ∀ a : W32, a ||| 0 = a := fun a => BitVec.or_zero
  have e8 : ∀ a : W32, 0 ||| a = a := fun a => BitVec.zero_or
  cases b
  · simp only [decaf_cond_negate, decaf_const_time_select, maskOf, BN.map2, e3, e4, e6, e7, if_false,
      Bool.false_eq_true]
  · simp only [decaf_cond_negate, decaf_const_time_select, maskOf, BN.map2, e3, e5, e6, e8, if_true, neg_eq]

theorem BN.val_digits (n : BN) (h : n.Lt (2 ^ 28)) : n.l0.toNat = n.val % 2 ^ 28 := by
  have := h.1
  simp only [BN.val, BN.ev, Nat.cast_id]
  omega

theorem low_bit_spec {x : BN} (hx : x.l8.toNat < 2 ^ 32 - 16) :
    low_bit x = maskOf (x.toF.val % 2 == 1) := by
  have h1 := strong_reduce_spec hx
  have h2 := strong_reduce_val hx
  have h3 := BN.val_digits _ h1.2.2
  rw [← h2]
  unfold low_bit
  have hl : ((strong_reduce x).l0 &&& 1).toNat = (strong_reduce x).val % 2 := by
    rw [BitVec.toNat_and, show (1 : W32).toNat = 2 ^ 1 - 1 from rfl, Nat.and_two_pow_sub_one_eq_mod, h3]
    omega
  rcases Nat.mod_two_eq_zero_or_one (strong_reduce x).val with h | h
  · rw [h] at hl ⊢
    have : (strong_reduce x).l0 &&& 1 = 0 := BitVec.eq_of_toNat_eq (by rw [hl]; rfl)
    simp only [this, maskOf]
    rfl
  · rw [h] at hl ⊢
    have : (strong_reduce x).l0 &&& 1 = 1 := BitVec.eq_of_toNat_eq (by rw [hl]; rfl)
    simp only [this, maskOf]
    rfl

theorem or_eq_zero_iff (a b : W32) : a ||| b = 0 ↔ a = 0 ∧ b = 0 := by
  constructor
  · intro h
    have h' : ∀ i, (a.getLsbD i || b.getLsbD i) = false := fun i => by
      rw [← BitVec.getLsbD_or, h]; simp
    constructor
    · apply BitVec.eq_of_getLsbD_eq
      intro i _
      have := h' i
      simp only [Bool.or_eq_false_iff] at this
      simp [this.1]
    · apply BitVec.eq_of_getLsbD_eq
      intro i _
      have := h' i
      simp only [Bool.or_eq_false_iff] at this
      simp [this.2]
  · rintro ⟨rfl, rfl⟩; rfl

/-- The number with the given 28-bit digits. -/
def limbsNat : List W32 → ℕ
  | [] => 0
  | x :: xs => x.toNat + 2 ^ 28 * limbsNat xs

theorem limbsNat_lt : ∀ l : List W32, (∀ x ∈ l, x.toNat < 2 ^ 28) → limbsNat l < 2 ^ (28 * l.length)
  | [], _ => by simp [limbsNat]
  | x :: xs, h => by
    have ih := limbsNat_lt xs (fun y hy => h y (by simp [hy]))
    have hx := h x (by simp)
    rw [limbsNat, List.length_cons, Nat.mul_add, Nat.mul_one, Nat.add_comm (28 * _), pow_add]
    omega

theorem limbsNat_eq_zero : ∀ l : List W32, limbsNat l = 0 ↔ ∀ x ∈ l, x = 0
  | [] => by simp [limbsNat]
  | x :: xs => by
    have hz : x = 0 ↔ x.toNat = 0 :=
      ⟨fun h => by rw [h]; rfl, fun h => BitVec.eq_of_toNat_eq (by rw [h]; rfl)⟩
    rw [limbsNat, List.forall_mem_cons, ← limbsNat_eq_zero xs, hz]
    omega

theorem BN.val_split (y : BN) : y.val = limbsNat [y.l0, y.l1, y.l2, y.l3, y.l4, y.l5, y.l6, y.l7, y.l8,
    y.l9, y.l10, y.l11, y.l12, y.l13, y.l14] + 2 ^ 420 * y.l15.toNat := by
  rw [show 420 = 28 * 15 from rfl, pow_mul]
  simp only [limbsNat, BN.val, BN.ev, Nat.cast_id]
  generalize 2 ^ 28 = t
  ring

set_option exponentiation.threshold 1000 in
/-- `decaf_equal` compares all but the top limb of the difference. -/
theorem decaf_equal_spec {n x : BN} (hn : n.Red) (hx : x.Red) :
    decaf_equal n x = maskOf ((n.toF - x.toF).val % 2 ^ 420 == 0) := by
  obtain ⟨hs1, hs2⟩ := sub_spec hn hx
  have h1 := strong_reduce_spec hs2.l8
  have hv := strong_reduce_val hs2.l8
  rw [← hs1, ← hv]
  clear hv
  simp only [decaf_equal]
  generalize strong_reduce (sub n x) = y at *
  rw [is_zero_mask_spec]
  obtain ⟨-, -, h0, h1, h2, h3, h4, h5, h6, h7, h8, h9, h10, h11, h12, h13, h14, h15⟩ := h1
  have hiff : (((((((((((((((((0 : W32) ||| y.l0) ||| y.l1) ||| y.l2) ||| y.l3) ||| y.l4) ||| y.l5) ||| y.l6) ||| y.l7)
      ||| y.l8) ||| y.l9) ||| y.l10) ||| y.l11) ||| y.l12) ||| y.l13) ||| y.l14) = 0) ↔
      y.val % 2 ^ 420 = 0 := by
    have hlt := limbsNat_lt [y.l0, y.l1, y.l2, y.l3, y.l4, y.l5, y.l6, y.l7, y.l8, y.l9, y.l10, y.l11, y.l12,
        y.l13, y.l14] (by
      intro y hy
      simp only [List.mem_cons, List.not_mem_nil, or_false] at hy
      rcases hy with h | h | h | h | h | h | h | h | h | h | h | h | h | h | h <;> rw [h] <;> assumption)
    simp only [List.length_cons, List.length_nil, Nat.reduceAdd, Nat.reduceMul] at hlt
    rw [y.val_split, Nat.add_mul_mod_self_left, Nat.mod_eq_of_lt hlt, limbsNat_eq_zero]
    simp only [or_eq_zero_iff, List.forall_mem_cons, true_and, and_assoc, List.not_mem_nil, false_implies,
      implies_true, and_true]
  unfold maskOf
  by_cases hc : y.val % 2 ^ 420 = 0
  · rw [if_pos (hiff.mpr hc), hc]; rfl
  · rw [if_neg (fun h => hc (hiff.mp h))]
    rw [beq_eq_false_iff_ne.mpr hc]
    rfl

end Ed448
