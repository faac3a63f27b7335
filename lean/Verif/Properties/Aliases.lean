import Verif.Properties.WeakKeys
import Verif.Properties.Interop

/-!
# C104: how many strings stand for one public key
-/

set_option exponentiation.threshold 1000

namespace Ed448

/-- Only numbers from 2^392 on can fail the byte check. -/
theorem passesCheck_of_lt {y : ℕ} (h : y < 2 ^ 392) : PassesCheck y := by
  by_contra hf
  have h1 : y < 2 ^ 448 := h.trans (Nat.pow_lt_pow_right (by norm_num) (by norm_num))
  rw [fails_iff h1, Nat.div_eq_of_lt (h.trans (Nat.pow_lt_pow_right (by norm_num) (by norm_num))), Nat.div_eq_of_lt h] at hf
  have h2 := lowCarry_lt (y % 2 ^ 392)
  generalize lowCarry (y % 2 ^ 392) = c at *
  omega

theorem p_plus : p + 2 ^ 224 + 1 = 2 ^ 448 := by rw [p_def]; decide +kernel

/-- C104. Two accepted strings describe the same point exactly if their y coordinates agree modulo p, and the sign bits unless x is zero. -/
theorem C104_same (b b' : List Byte) (A : E) (hA : Decodes b A) : Decodes b' A ↔ yNat b % p = yNat b' % p ∧ (A.x = 0 ∨ signBit b = signBit b') := by
  obtain ⟨h1, h2⟩ := hA
  rw [Decodes, h1, ZMod.natCast_eq_natCast_iff']
  refine and_congr_right fun _ => ?_
  by_cases hx : A.x = 0
  · simp only [hx, true_or]
  · rw [or_iff_right hx] at h2
    rw [or_iff_right hx, or_iff_right hx, h2]

/-- C104. A string is the encoding of the point that it describes exactly if y is below p and, where x is zero, the sign bit is clear. Deriving a public key gives such strings
only (C16). -/
theorem C104_canonical (b : List Byte) (A : E) (hb : Accepted b) (hA : Decodes b A) : b = encodePoint A ↔ yNat b < p ∧ (A.x = 0 → signBit b = 0) := by
  rw [← decodesTo_iff, RFC.DecodesTo]
  constructor
  · rintro ⟨_, _, h3, _, h5⟩
    exact ⟨h3, fun hx => by rw [← h5, hx, ZMod.val_zero]⟩
  · rintro ⟨h1, h2⟩
    refine ⟨hb.1, hb.2.1, h1, hA.1, ?_⟩
    rcases hA.2 with hx | hx
    · rw [hx, ZMod.val_zero, h2 hx]
    · exact hx

/-- The strings for a point, as y coordinate and sign bit. -/
theorem strings_of (A : E) (hr : ¬ LowZero (imageZ A.x A.y)) : {b | Accepted b ∧ Decodes b A} =
    keyString '' (({y | (y = A.y.val ∨ y = A.y.val + p) ∧ y < 2 ^ 448 ∧ PassesCheck y} : Set ℕ) ×ˢ ({s | s < 2 ∧ (A.x = 0 ∨ A.x.val % 2 = s)} : Set ℕ)) := by
  have hcast : ((A.y.val : ℕ) : F) = A.y := ZMod.natCast_zmod_val A.y
  ext b
  constructor
  · rintro ⟨ha, hd⟩
    refine ⟨(yNat b, signBit b), ⟨⟨?_, yNat_lt ha.1, ha.2.2.1⟩, signBit_lt b, hd.2⟩, keyString_of ha.1 ha.2.1⟩
    exact residue_cases (yNat_lt ha.1) (ZMod.val_lt A.y) (by rw [hcast, hd.1])
  · rintro ⟨⟨y, s⟩, ⟨⟨h1, h2, h3⟩, h4, h5⟩, rfl⟩
    obtain ⟨k1, k2, k3, k4⟩ := keyString_parts h2 h4
    have hd : Decodes (keyString (y, s)) A := by
      refine ⟨?_, by rw [k3]; exact h5⟩
      rw [k4]
      rcases h1 with h1 | h1
      · rw [show y = A.y.val from h1, hcast]
      · rw [show y = A.y.val + p from h1, Nat.cast_add, ZMod.natCast_self, add_zero, hcast]
    exact ⟨(accepted_iff_of_point hd).mpr ⟨k1, k2, by rwa [k4], hr⟩, hd⟩

open Classical in
/-- C104. The number of accepted strings for a point: none if its encoding is refused; otherwise one, doubled if y is at most `2^224`, and doubled if x is zero. -/
theorem C104_number (A : E) : Set.ncard {b | Accepted b ∧ Decodes b A} =
    if Accepted (encodePoint A) then (if A.y.val ≤ 2 ^ 224 then 2 else 1) * (if A.x = 0 then 2 else 1) else 0 := by
  have hp := p_plus
  have hv := ZMod.val_lt A.y
  have hcan : RFC.DecodesTo (encodePoint A) A := decodesTo_iff.mpr rfl
  have hyc : yNat (encodePoint A) = A.y.val := by
    rw [hcan.2.2.2.1, ZMod.val_cast_of_lt hcan.2.2.1]
  have hacc := accepted_iff_of_point (decodes_encode A)
  rw [hyc] at hacc
  have hhigh : 2 ^ 428 ≤ p := by rw [p_def]; decide +kernel
  have h392 : 2 ^ 224 < 2 ^ 392 := by norm_num
  have hlow : A.y.val ≤ 2 ^ 224 → PassesCheck A.y.val := fun h => passesCheck_of_lt (h.trans_lt h392)
  by_cases hr : LowZero (imageZ A.x A.y)
  · rw [if_neg (fun h => (hacc.mp h).2.2.2 hr)]
    have e : {b | Accepted b ∧ Decodes b A} = ∅ := Set.eq_empty_of_forall_notMem fun b h => ((accepted_iff_of_point h.2).mp h.1).2.2.2 hr
    rw [e, Set.ncard_empty]
  · have hi : Set.InjOn keyString (({y | (y = A.y.val ∨ y = A.y.val + p) ∧ y < 2 ^ 448 ∧ PassesCheck y} : Set ℕ) ×ˢ
        ({s | s < 2 ∧ (A.x = 0 ∨ A.x.val % 2 = s)} : Set ℕ)) := by
      rintro ⟨y, s⟩ ⟨⟨_, h1, _⟩, h3, _⟩ ⟨y', s'⟩ ⟨⟨_, h1', _⟩, h3', _⟩ h
      obtain ⟨_, _, k3, k4⟩ := keyString_parts h1 h3
      obtain ⟨_, _, k3', k4'⟩ := keyString_parts h1' h3'
      rw [h, k3'] at k3
      rw [h, k4'] at k4
      exact Prod.ext k4.symm k3.symm
    have hs : Set.ncard {s | s < 2 ∧ (A.x = 0 ∨ A.x.val % 2 = s)} = if A.x = 0 then 2 else 1 := by
      by_cases hx : A.x = 0
      · have e : {s | s < 2 ∧ (A.x = 0 ∨ A.x.val % 2 = s)} = ((Finset.range 2 : Finset ℕ) : Set ℕ) := by
          ext s
          simp [hx]
        rw [e, Set.ncard_coe_finset, Finset.card_range, if_pos hx]
      · have e : {s | s < 2 ∧ (A.x = 0 ∨ A.x.val % 2 = s)} = {A.x.val % 2} := by
          ext s
          simp only [hx, false_or, Set.mem_ofPred_eq, Set.mem_singleton_iff]
          omega
        rw [e, Set.ncard_singleton, if_neg hx]
    have hy : Set.ncard {y | (y = A.y.val ∨ y = A.y.val + p) ∧ y < 2 ^ 448 ∧ PassesCheck y} =
        if PassesCheck A.y.val then (if A.y.val ≤ 2 ^ 224 then 2 else 1) else 0 := by
      by_cases hl : A.y.val ≤ 2 ^ 224
      · rw [if_pos (hlow hl), if_pos hl]
        have e : {y | (y = A.y.val ∨ y = A.y.val + p) ∧ y < 2 ^ 448 ∧ PassesCheck y} = {A.y.val, A.y.val + p} := by
          ext y
          simp only [Set.mem_ofPred_eq, Set.mem_insert_iff, Set.mem_singleton_iff]
          refine ⟨fun h => h.1, fun h => ⟨h, ?_⟩⟩
          have hb : A.y.val + p < 2 ^ 448 := by omega
          rcases h with rfl | rfl
          · exact ⟨by omega, hlow hl⟩
          · exact ⟨hb, passesCheck_of_ge (by omega) hb⟩
        rw [e, Set.ncard_pair (by omega)]
      · have e : {y | (y = A.y.val ∨ y = A.y.val + p) ∧ y < 2 ^ 448 ∧ PassesCheck y} = {y | y = A.y.val ∧ PassesCheck A.y.val} := by
          ext y
          simp only [Set.mem_ofPred_eq]
          constructor
          · rintro ⟨rfl | rfl, h2, h3⟩
            · exact ⟨rfl, h3⟩
            · omega
          · rintro ⟨rfl, h⟩
            exact ⟨.inl rfl, by omega, h⟩
        rw [e, if_neg hl]
        by_cases hc : PassesCheck A.y.val
        · simp [hc]
        · simp [hc]
    rw [strings_of A hr, hi.ncard_image, Set.ncard_prod, hs, hy]
    by_cases hc : PassesCheck A.y.val
    · rw [if_pos hc, if_pos (hacc.mpr ⟨hcan.1, hcan.2.1, hc, hr⟩)]
    · rw [if_neg hc, if_neg (fun h => hc (hacc.mp h).2.2.1), zero_mul]

/-- C104. So a point whose encoding is refused cannot be given in another way, and no point has more than four strings; four belong to the neutral element only. -/
theorem C104_most (A : E) : (¬ Accepted (encodePoint A) → ∀ b, Decodes b A → ¬ Accepted b) ∧
    Set.ncard {b | Accepted b ∧ Decodes b A} ≤ 4 ∧ (Set.ncard {b | Accepted b ∧ Decodes b A} = 4 ↔ A = 0) := by
  have hn := C104_number A
  refine ⟨fun h b hd ha => ?_, ?_, ?_⟩
  · have hr := (accepted_iff_of_point hd).mp ha
    have hf : {b | Accepted b ∧ Decodes b A}.Finite := by
      rw [strings_of A hr.2.2.2]
      refine Set.Finite.image _ (Set.Finite.prod ?_ ?_)
      · exact (Set.toFinite {A.y.val, A.y.val + p}).subset fun y h => h.1
      · exact (Set.finite_Iio 2).subset fun s h => h.1
    rw [if_neg h, Set.ncard_eq_zero hf] at hn
    exact (Set.eq_empty_iff_forall_notMem.mp hn) b ⟨ha, hd⟩
  · rw [hn]
    split_ifs <;> omega
  · have hb := p_bounds
    have hp := p_plus
    constructor
    · intro h
      rw [hn] at h
      have hx : A.x = 0 := by
        by_contra hx
        rw [if_neg hx] at h
        split_ifs at h <;> omega
      have hy : A.y.val ≤ 2 ^ 224 := by
        by_contra hy
        rw [if_neg hy] at h
        split_ifs at h; omega
      have h1 : (A.y - 1) * (A.y + 1) = 0 := by
        have := A.on
        rw [hx] at this
        linear_combination this
      rcases mul_eq_zero.mp h1 with h2 | h2
      · exact Edw.ext hx (by rw [show A.y = 1 by linear_combination h2]; rfl)
      · exfalso
        have h3 : A.y = ((p - 1 : ℕ) : F) := by
          rw [Nat.cast_sub (by omega), ZMod.natCast_self, Nat.cast_one]
          linear_combination h2
        rw [h3, ZMod.val_cast_of_lt (by omega)] at hy
        have : (2 : ℕ) ^ 224 < 2 ^ 447 := by norm_num
        omega
    · rintro rfl
      have h0 : (0 : E).x = 0 := rfl
      have h1 : (0 : E).y.val ≤ 2 ^ 224 := by
        show (1 : F).val ≤ 2 ^ 224
        rw [show (1 : F) = ((1 : ℕ) : F) by rw [Nat.cast_one], ZMod.val_cast_of_lt (by omega)]
        norm_num
      rw [hn, if_pos Witness.zero_accepted, if_pos h0, if_pos h1]

/-- The base point has one string, the point of order two has two. -/
example : Set.ncard {b | Accepted b ∧ Decodes b B} = 1 ∧ Set.ncard {b | Accepted b ∧ Decodes b T2} = 2 := by
  have hb := p_bounds
  have hx : B.x ≠ 0 := by
    intro h
    have h1 := congrArg ZMod.val h
    rw [Witness.B_coords.1, val_cast_lt (by decide +kernel), ZMod.val_zero] at h1
    exact absurd h1 (by decide +kernel)
  have hy : ¬ B.y.val ≤ 2 ^ 224 := by
    rw [Witness.B_coords.2, val_cast_lt (by decide +kernel)]
    decide +kernel
  have h2 : T2.y = ((p - 1 : ℕ) : F) := by
    rw [Nat.cast_sub (by omega), ZMod.natCast_self, Nat.cast_one, zero_sub]
    rfl
  have hy2 : ¬ T2.y.val ≤ 2 ^ 224 := by
    rw [h2, ZMod.val_cast_of_lt (by omega)]
    have : (2 : ℕ) ^ 224 < 2 ^ 447 := by norm_num
    omega
  have h0 : T2.x = 0 := rfl
  have ha : Accepted (encodePoint T2) := by
    have h1 : RFC.DecodesTo (encodePoint T2) T2 := decodesTo_iff.mpr rfl
    exact (C32_sign_of_zero _ T2 h1.1 h1.2.1 h0 h1.2.2.2.1).1
  rw [C104_number, C104_number, if_pos Witness.B_accepted, if_neg hy, if_neg hx, if_pos ha, if_neg hy2, if_pos h0]
  exact ⟨rfl, rfl⟩

/-- C104. At most `2^225 + 4` of all strings are accepted and describe a point otherwise than by its encoding. -/
theorem C104_few : Set.ncard {b | Accepted b ∧ ∃ A : E, Decodes b A ∧ b ≠ encodePoint A} ≤ 2 ^ 225 + 4 := by
  have hp := p_plus
  have hb := p_bounds
  have hs : {b | Accepted b ∧ ∃ A : E, Decodes b A ∧ b ≠ encodePoint A} ⊆
      keyString '' (((Finset.Ico p (2 ^ 448) ×ˢ Finset.range 2 ∪ {(1, 1), (p - 1, 1)} : Finset (ℕ × ℕ))) : Set (ℕ × ℕ)) := by
    rintro b ⟨ha, A, hd, hne⟩
    refine ⟨(yNat b, signBit b), ?_, keyString_of ha.1 ha.2.1⟩
    rw [Finset.mem_coe, Finset.mem_union, Finset.mem_product, Finset.mem_Ico, Finset.mem_range]
    by_cases hy : yNat b < p
    · right
      have hx : A.x = 0 := by
        by_contra hx
        exact hne ((C104_canonical b A ha hd).mpr ⟨hy, fun h => absurd h hx⟩)
      have hs1 : signBit b = 1 := by
        have h1 := signBit_lt b
        by_contra hs
        exact hne ((C104_canonical b A ha hd).mpr ⟨hy, fun _ => by omega⟩)
      have h1 : (A.y - 1) * (A.y + 1) = 0 := by
        have := A.on
        rw [hx] at this
        linear_combination this
      rw [Finset.mem_insert, Finset.mem_singleton, hs1]
      rcases mul_eq_zero.mp h1 with h2 | h2
      · have h3 : (yNat b : F) = ((1 : ℕ) : F) := by rw [← hd.1, Nat.cast_one]; linear_combination h2
        rcases residue_cases (yNat_lt ha.1) (by omega) h3 with h4 | h4
        · exact .inl (by rw [h4])
        · omega
      · have h3 : (yNat b : F) = ((p - 1 : ℕ) : F) := by
          rw [← hd.1, Nat.cast_sub (by omega), ZMod.natCast_self, Nat.cast_one]
          linear_combination h2
        rcases residue_cases (yNat_lt ha.1) (by omega) h3 with h4 | h4
        · exact .inr (by rw [h4])
        · omega
    · left
      exact ⟨⟨by dsimp only; omega, yNat_lt ha.1⟩, signBit_lt b⟩
  refine (Set.ncard_le_ncard hs (Set.Finite.image _ (Finset.finite_toSet _))).trans ((Set.ncard_image_le (Finset.finite_toSet _)).trans ?_)
  rw [Set.ncard_coe_finset]
  refine (Finset.card_union_le _ _).trans ?_
  rw [Finset.card_product, Finset.card_range, Nat.card_Ico]
  have h2 : ({(1, 1), (p - 1, 1)} : Finset (ℕ × ℕ)).card ≤ 2 := Finset.card_le_two
  have h3 : (2 : ℕ) ^ 225 = 2 * 2 ^ 224 := by rw [pow_succ]; ring
  omega

end Ed448
