import Verif.Model.Unused
import Verif.Field.Bytes

/-!
# What the unused helpers compute
-/

set_option exponentiation.threshold 1000

namespace Ed448.Unused

open Ed448

theorem pack_or64 (j : ℕ) (b : Byte) (w : W64) (hn : j < 8) (hw : w.toNat < 2 ^ (8 * j)) :
    (w ||| (b.setWidth 64 <<< (8 * j))).toNat = w.toNat + 2 ^ (8 * j) * b.toNat := by
  have hb := b.isLt
  have hs : (b.setWidth 64 <<< (8 * j)).toNat = 2 ^ (8 * j) * b.toNat := by
    have h1 : (b.setWidth 64).toNat = b.toNat := by rw [BitVec.toNat_setWidth]; omega
    rw [BitVec.toNat_shiftLeft, h1, Nat.shiftLeft_eq, Nat.mod_eq_of_lt, Nat.mul_comm]
    calc b.toNat * 2 ^ (8 * j) < 2 ^ 8 * 2 ^ (8 * j) := Nat.mul_lt_mul_of_pos_right hb (by positivity)
      _ = 2 ^ (8 + 8 * j) := by rw [pow_add]
      _ ≤ 2 ^ 64 := Nat.pow_le_pow_right (by norm_num) (by omega)
  rw [BitVec.toNat_or, hs, Nat.or_comm, ← Nat.two_pow_add_eq_or_of_lt hw]
  ring

theorem packPair_spec : ∀ (n j : ℕ) (w : W64) (l : List Byte), n + j ≤ 8 → w.toNat < 2 ^ (8 * j) →
    (packPair n j w l).1.toNat = w.toNat + 2 ^ (8 * j) * leNat (l.take n) ∧ (packPair n j w l).2 = l.drop n
  | 0, j, w, l, _, _ => by simp [packPair, leNat]
  | n + 1, j, w, [], _, _ => by simp [packPair, leNat]
  | n + 1, j, w, b :: l, h, hw => by
    have hb := b.isLt
    have ho := pack_or64 j b w (by omega) hw
    have hlt : (w ||| (b.setWidth 64 <<< (8 * j))).toNat < 2 ^ (8 * (j + 1)) := by
      rw [ho, show 8 * (j + 1) = 8 + 8 * j by ring, pow_add]
      have : 2 ^ (8 * j) * (b.toNat + 1) ≤ 2 ^ (8 * j) * 2 ^ 8 := Nat.mul_le_mul_left _ hb
      rw [Nat.mul_comm (2 ^ 8)]
      rw [Nat.mul_add, Nat.mul_one] at this
      omega
    have ih := packPair_spec n (j + 1) _ l (by omega) hlt
    rw [packPair, List.take_succ_cons, List.drop_succ_cons, leNat]
    refine ⟨?_, ih.2⟩
    rw [ih.1, ho, show 8 * (j + 1) = 8 + 8 * j by ring, pow_add]
    ring

theorem packPairs_spec : ∀ (n : ℕ) (l : List Byte), l.length = 7 * n → packPairs n l = digits28 (2 * n) (leNat l)
  | 0, l, _ => rfl
  | n + 1, l, hl => by
    obtain ⟨h1, h2⟩ := packPair_spec 7 0 0 l (by norm_num) (by decide)
    rw [show BitVec.toNat (0 : W64) = 0 from rfl, Nat.zero_add, Nat.mul_zero, pow_zero, Nat.one_mul] at h1
    have h3 : leNat l = leNat (l.take 7) + 2 ^ 56 * leNat (l.drop 7) := by
      conv_lhs => rw [← List.take_append_drop 7 l, leNat_append]
      rw [List.length_take, show min 7 l.length = 7 by omega]
      norm_num
    have h4 : leNat (l.take 7) < 2 ^ 56 := by
      have := leNat_lt (l.take 7)
      rw [List.length_take, show min 7 l.length = 7 by omega] at this
      calc _ < _ := this
        _ = _ := by norm_num
    rw [packPairs, h2, packPairs_spec n _ (by rw [List.length_drop]; omega), show 2 * (n + 1) = 2 * n + 1 + 1 by ring, digits28, digits28]
    have e1 : leNat l % 2 ^ 28 = leNat (l.take 7) % 2 ^ 28 := by rw [h3]; omega
    have e2 : leNat l / 2 ^ 28 % 2 ^ 28 = leNat (l.take 7) / 2 ^ 28 := by rw [h3]; omega
    have e3 : leNat l / 2 ^ 28 / 2 ^ 28 = leNat (l.drop 7) := by rw [h3]; omega
    rw [e1, e2, e3]
    congr 1
    · apply BitVec.eq_of_toNat_eq
      rw [BitVec.toNat_and, BitVec.toNat_ofNat, show (lo32 (packPair 7 0 0 l).1).toNat = (packPair 7 0 0 l).1.toNat % 2 ^ 32 from BitVec.toNat_setWidth ..,
        show (RADIX_MASK).toNat = 2 ^ 28 - 1 by decide, Nat.and_two_pow_sub_one_eq_mod, h1]
      omega
    · congr 1
      apply BitVec.eq_of_toNat_eq
      rw [BitVec.toNat_ofNat, show (lo32 ((packPair 7 0 0 l).1 >>> 28)).toNat = ((packPair 7 0 0 l).1 >>> 28).toNat % 2 ^ 32 from BitVec.toNat_setWidth ..,
        BitVec.toNat_ushiftRight, Nat.shiftRight_eq_div_pow, h1]

theorem and_radix_iff {a b : W32} (ha : a &&& RADIX_MASK = a) (hb : b &&& RADIX_MASK = b) :
    a &&& b = RADIX_MASK ↔ a = RADIX_MASK ∧ b = RADIX_MASK := by
  constructor
  · intro h
    refine ⟨?_, ?_⟩
    · rw [← ha, ← h, ← BitVec.and_assoc, BitVec.and_self]
    · rw [← hb, ← h, BitVec.and_comm a b, ← BitVec.and_assoc, BitVec.and_self]
  · rintro ⟨rfl, rfl⟩
    rfl

theorem and_radix_and {a b : W32} (ha : a &&& RADIX_MASK = a) : (a &&& b) &&& RADIX_MASK = a &&& b := by
  rw [BitVec.and_assoc, BitVec.and_comm b, ← BitVec.and_assoc, ha]

theorem and_radix_of_lt {a : W32} (h : a.toNat < 2 ^ 28) : a &&& RADIX_MASK = a := by
  apply BitVec.eq_of_toNat_eq
  rw [BitVec.toNat_and, show (RADIX_MASK).toNat = 2 ^ 28 - 1 by decide, Nat.and_two_pow_sub_one_eq_mod, Nat.mod_eq_of_lt h]

theorem eq_radix_iff {a : W32} : a = RADIX_MASK ↔ a.toNat = 2 ^ 28 - 1 :=
  ⟨fun h => by rw [h]; decide, fun h => BitVec.eq_of_toNat_eq (h.trans (by decide))⟩

/-- On limbs below `2^28` the comparison looks at the low eight limbs only, and compares the number they form with
`2^224 - 2^112 - 1`. All ones is returned when the number is smaller. -/
theorem greater_or_equal_spec (n : BN) (h : ∀ x ∈ n.toList, x.toNat < 2 ^ 28) :
    constant_time_greater_or_equal_p n = .ok (maskOf (decide (n.val % 2 ^ 224 < 2 ^ 224 - 2 ^ 112 - 1))) := by
  simp only [BN.toList, List.mem_cons, List.not_mem_nil, or_false, forall_eq_or_imp, forall_eq] at h
  obtain ⟨h0, h1, h2, h3, h4, h5, h6, h7, h8, h9, h10, h11, h12, h13, h14, h15⟩ := h
  have hl : n.l4 ≠ LMASK := fun e => by rw [e] at h4; exact absurd h4 (by decide)
  have e0 : LMASK &&& n.l0 = n.l0 := BitVec.allOnes_and
  have hv : n.val % 2 ^ 224 = n.l0.toNat + 2 ^ 28 * n.l1.toNat + 2 ^ 56 * n.l2.toNat + 2 ^ 84 * n.l3.toNat
      + 2 ^ 112 * n.l4.toNat + 2 ^ 140 * n.l5.toNat + 2 ^ 168 * n.l6.toNat + 2 ^ 196 * n.l7.toNat := by
    simp only [BN.val, BN.ev, Nat.cast_id]
    omega
  have key : ((n.l0 &&& n.l1 &&& n.l2 &&& n.l3 &&& (n.l4 + 1) ||| is_zero_mask (n.l4 ^^^ RADIX_MASK)) &&& n.l5 &&& n.l6 &&& n.l7
      = RADIX_MASK) ↔ ¬ n.val % 2 ^ 224 < 2 ^ 224 - 2 ^ 112 - 1 := by
    have a0 := and_radix_of_lt h0
    have a1 := and_radix_of_lt h1
    have a2 := and_radix_of_lt h2
    have a3 := and_radix_of_lt h3
    have a5 := and_radix_of_lt h5
    have a6 := and_radix_of_lt h6
    have a7 := and_radix_of_lt h7
    rw [hv, is_zero_mask_spec]
    by_cases h4r : n.l4 = RADIX_MASK
    · rw [if_pos (by rw [h4r]; rfl), BitVec.or_allOnes, BitVec.allOnes_and, and_radix_iff (and_radix_and a5) a7, and_radix_iff a5 a6]
      simp only [eq_radix_iff] at h4r ⊢
      omega
    · have hp : (n.l4 + 1).toNat = n.l4.toNat + 1 := by
        rw [BitVec.toNat_add, show (1 : W32).toNat = 1 from rfl]
        omega
      have hne : n.l4.toNat ≠ 2 ^ 28 - 1 := fun e => h4r (eq_radix_iff.2 e)
      have a4 := and_radix_of_lt (a := n.l4 + 1) (by rw [hp]; omega)
      have hx : n.l4 ^^^ RADIX_MASK ≠ 0 := fun e => h4r (BitVec.xor_eq_zero_iff.1 e)
      rw [if_neg hx, show ∀ x : W32, x ||| 0 = x from fun x => BitVec.or_zero,
        and_radix_iff (and_radix_and (and_radix_and (and_radix_and (and_radix_and (and_radix_and (and_radix_and a0)))))) a7,
        and_radix_iff (and_radix_and (and_radix_and (and_radix_and (and_radix_and (and_radix_and a0))))) a6,
        and_radix_iff (and_radix_and (and_radix_and (and_radix_and (and_radix_and a0)))) a5,
        and_radix_iff (and_radix_and (and_radix_and (and_radix_and a0))) a4,
        and_radix_iff (and_radix_and (and_radix_and a0)) a3, and_radix_iff (and_radix_and a0) a2, and_radix_iff a0 a1]
      simp only [eq_radix_iff, hp]
      omega
  unfold constant_time_greater_or_equal_p
  dsimp only
  rw [if_neg hl, e0, is_zero_mask_spec (_ ^^^ RADIX_MASK)]
  show Except.ok _ = _
  congr 1
  generalize hge : (n.l0 &&& n.l1 &&& n.l2 &&& n.l3 &&& (n.l4 + 1) ||| is_zero_mask (n.l4 ^^^ RADIX_MASK)) &&& n.l5 &&& n.l6 &&& n.l7 = ge at *
  by_cases hr : ge = RADIX_MASK
  · rw [if_pos (by rw [hr]; rfl), maskOf, if_neg (by simpa using key.1 hr)]
    rfl
  · have hx : ge ^^^ RADIX_MASK ≠ 0 := fun e => hr (BitVec.xor_eq_zero_iff.1 e)
    rw [if_neg hx, maskOf, if_pos (by
      rw [decide_eq_true_iff]
      exact not_not.1 (fun e => hr (key.2 e)))]
    rfl

theorem digits28_small : ∀ k v, ∀ x ∈ digits28 k v, x.toNat < 2 ^ 28
  | 0, _, x, h => by simp [digits28] at h
  | k + 1, v, x, h => by
    rw [digits28, List.mem_cons] at h
    rcases h with rfl | h
    · rw [BitVec.toNat_ofNat]
      omega
    · exact digits28_small k _ x h

theorem toList_ofList {l : List W32} (h : l.length = 16) : (BN.ofList l).toList = l := by
  match l, h with
  | [a0, a1, a2, a3, a4, a5, a6, a7, a8, a9, a10, a11, a12, a13, a14, a15], _ => rfl

/-- `deserialize` reads the 56 bytes as a little-endian number `v`, cuts it into sixteen 28-bit limbs, and reports success
exactly when `v mod 2^224 < 2^224 - 2^112 - 1`. -/
theorem deserialize_spec (inp : Arr Byte 56) :
    ∃ n : BN, n.val = leNat inp.1 ∧ (∀ x ∈ n.toList, x.toNat < 2 ^ 28) ∧
      deserialize inp = .ok (n, decide (leNat inp.1 % 2 ^ 224 < 2 ^ 224 - 2 ^ 112 - 1)) := by
  have hlt : leNat inp.1 < 2 ^ 448 := by
    have := leNat_lt inp.1
    rw [inp.2] at this
    calc _ < _ := this
      _ = _ := by rw [show 256 = 2 ^ 8 from rfl, ← pow_mul]
  have hp := packPairs_spec 8 inp.1 inp.2
  have hs : ∀ x ∈ (BN.ofList (digits28 16 (leNat inp.1))).toList, x.toNat < 2 ^ 28 := by
    rw [toList_ofList (digits28_length ..)]
    exact digits28_small _ _
  have hv : (BN.ofList (digits28 16 (leNat inp.1))).val = leNat inp.1 := by
    rw [limbsNat_ofList (digits28_length ..), limbsNat_digits28, ← pow_mul]
    exact Nat.mod_eq_of_lt hlt
  refine ⟨_, hv, hs, ?_⟩
  unfold deserialize deserialize_return_mask
  dsimp only
  rw [hp, show 2 * 8 = 16 from rfl, greater_or_equal_spec _ hs, hv]
  show Except.ok _ = _
  congr 2
  generalize decide (leNat inp.1 % 2 ^ 224 < 2 ^ 224 - 2 ^ 112 - 1) = b
  cases b <;> rfl

end Ed448.Unused
