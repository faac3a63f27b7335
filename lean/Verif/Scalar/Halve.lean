import Verif.Scalar.Words

/-! # Halving modulo q -/

set_option exponentiation.threshold 1000

namespace Ed448

theorem toNat_u64 (x : W32) : (u64 x).toNat = x.toNat := by
  rw [BitVec.toNat_setWidth, Nat.mod_eq_of_lt]
  have := x.isLt
  omega

theorem toNat_lo32 (x : W64) : (lo32 x).toNat = x.toNat % 2 ^ 32 := BitVec.toNat_setWidth ..

theorem toNat_shr32 (x : W64) : (x >>> 32).toNat = x.toNat / 2 ^ 32 := by
  rw [BitVec.toNat_ushiftRight, Nat.shiftRight_eq_div_pow]

/-- The words of `SCALAR_Q & mask`. -/
def maskWords (mask : W32) (l : List W32) : List W32 := l.map (· &&& mask)

theorem halveChain_spec (mask : W32) : ∀ (a b : List W32) (c : W64), a.length = b.length → c.toNat ≤ 1 →
    wordsNat (halveChain mask a b c).1 + 2 ^ (32 * a.length) * (halveChain mask a b c).2.toNat =
      wordsNat a + wordsNat (maskWords mask b) + c.toNat ∧ (halveChain mask a b c).2.toNat ≤ 1
  | [], [], c, _, hc => by simp [halveChain, wordsNat, maskWords, hc]
  | m :: ms, s :: ss, c, h, hc => by
    have hm := m.isLt
    have hs := (s &&& mask).isLt
    have hv : (c + (u64 m + u64 (s &&& mask))).toNat = c.toNat + m.toNat + (s &&& mask).toNat := by
      rw [BitVec.toNat_add, BitVec.toNat_add, toNat_u64, toNat_u64]
      omega
    have ih := halveChain_spec mask ms ss ((c + (u64 m + u64 (s &&& mask))) >>> 32) (by simpa using h)
      (by rw [toNat_shr32, hv]; omega)
    simp only [halveChain, wordsNat, List.length_cons, maskWords, List.map_cons, toNat_lo32]
    simp only [maskWords] at ih
    refine ⟨?_, ih.2⟩
    have ih1 := ih.1
    rw [toNat_shr32] at ih1
    rw [show 32 * (ms.length + 1) = 32 + 32 * ms.length by ring, pow_add]
    have hd := Nat.mod_add_div (c + (u64 m + u64 (s &&& mask))).toNat (2 ^ 32)
    generalize (c + (u64 m + u64 (s &&& mask))).toNat / 2 ^ 32 = e at *
    generalize (c + (u64 m + u64 (s &&& mask))).toNat % 2 ^ 32 = f at *
    generalize (2 : ℕ) ^ (32 * ms.length) = t at *
    linear_combination 2 ^ 32 * ih1 + hd + hv

theorem shr_or (s t : W32) : ((s >>> 1) ||| (t <<< 31)).toNat = s.toNat / 2 + 2 ^ 31 * (t.toNat % 2) := by
  have h1 : (s >>> 1).toNat = s.toNat / 2 := by rw [BitVec.toNat_ushiftRight]; rfl
  have h2 : (t <<< 31).toNat = 2 ^ 31 * (t.toNat % 2) := by
    rw [BitVec.toNat_shiftLeft, Nat.shiftLeft_eq]; omega
  have hs := s.isLt
  rw [BitVec.toNat_or, h1, h2, Nat.or_comm, ← Nat.two_pow_add_eq_or_of_lt (by omega)]
  omega

theorem shrChain_spec : ∀ (a : List W32) (c : W64), a ≠ [] → c.toNat ≤ 1 →
    wordsNat (shrChain a c) = (wordsNat a + 2 ^ (32 * a.length) * c.toNat) / 2
  | [], _, h, _ => absurd rfl h
  | [s], c, _, hc => by
    have hs := s.isLt
    have : lo32 (c <<< 31) = (lo32 c) <<< 31 := by
      apply BitVec.eq_of_toNat_eq
      rw [toNat_lo32, BitVec.toNat_shiftLeft, BitVec.toNat_shiftLeft, toNat_lo32, Nat.shiftLeft_eq, Nat.shiftLeft_eq]
      omega
    simp only [shrChain, wordsNat, this, shr_or, toNat_lo32, List.length_singleton]
    omega
  | s :: s' :: ss, c, _, hc => by
    have ih := shrChain_spec (s' :: ss) c (by simp) hc
    have hs := s.isLt
    rw [shrChain, wordsNat, ih, shr_or]
    rw [List.length_cons (a := s), show 32 * ((s' :: ss).length + 1) = 32 + 32 * (s' :: ss).length by ring, pow_add,
      wordsNat.eq_2 s (s' :: ss)]
    have hm : (wordsNat (s' :: ss) + 2 ^ (32 * (s' :: ss).length) * c.toNat) % 2 = s'.toNat % 2 := by
      rw [wordsNat, List.length_cons, show 32 * (ss.length + 1) = 32 + 32 * ss.length by ring, pow_add, mul_assoc]
      omega
    have : s.toNat + 2 ^ 32 * wordsNat (s' :: ss) + 2 ^ 32 * 2 ^ (32 * (s' :: ss).length) * c.toNat =
      s.toNat + 2 ^ 32 * (wordsNat (s' :: ss) + 2 ^ (32 * (s' :: ss).length) * c.toNat) := by ring
    rw [this]
    generalize wordsNat (s' :: ss) + 2 ^ (32 * (s' :: ss).length) * c.toNat = v at *
    omega

theorem Scalar.head_mod (s : Scalar) : s.head.toNat = s.val % 2 ^ 32 := by
  obtain ⟨l, hl⟩ := s
  match l, hl with
  | w :: ws, hl =>
    have := w.isLt
    show w.toNat = (w.toNat + 2 ^ 32 * wordsNat ws) % 2 ^ 32
    omega

theorem maskWords_zero (l : List W32) : wordsNat (maskWords 0 l) = 0 := by
  induction l with
  | nil => rfl
  | cons w ws ih =>
    have : w &&& 0 = 0 := BitVec.and_zero
    simp only [maskWords, List.map_cons, wordsNat] at *
    rw [ih, this]; rfl

theorem maskWords_ones (l : List W32) : maskWords (BitVec.allOnes 32) l = l := by
  have : ∀ w : W32, w &&& BitVec.allOnes 32 = w := fun w => BitVec.and_allOnes
  simp only [maskWords, this, List.map_id']

/-- `halve` computes `s/2` or `(s+q)/2`, whichever is an integer. -/
theorem halve_val (s : Scalar) : (halve s).val = if s.val % 2 = 0 then s.val / 2 else (s.val + q) / 2 := by
  have hm := s.head_mod
  have h0 := halveChain_spec (0 - (s.head &&& 1)) s.1 SCALAR_Q.1 0 (s.2.trans SCALAR_Q.2.symm) (by decide)
  obtain ⟨h1, h2⟩ := h0
  have hl : (halveChain (0 - (s.head &&& 1)) s.1 SCALAR_Q.1 0).1.length = 14 := by
    rw [halveChain_length, s.2, SCALAR_Q.2]; rfl
  have h3 := shrChain_spec (halveChain (0 - (s.head &&& 1)) s.1 SCALAR_Q.1 0).1
    (halveChain (0 - (s.head &&& 1)) s.1 SCALAR_Q.1 0).2 (by intro h; rw [h] at hl; simp at hl) h2
  rw [s.2] at h1
  rw [hl, h1, show BitVec.toNat (0 : W64) = 0 from rfl, Nat.add_zero] at h3
  have hb : (s.head &&& 1).toNat = s.val % 2 := by
    rw [BitVec.toNat_and, show BitVec.toNat (1 : W32) = 1 from rfl, Nat.and_one_is_mod, hm]
    omega
  have hv : (halve s).val = (s.val + wordsNat (maskWords (0 - (s.head &&& 1)) SCALAR_Q.1)) / 2 := h3
  rw [hv]
  split
  · next h =>
    have : s.head &&& 1 = 0 := BitVec.eq_of_toNat_eq (hb.trans h)
    rw [this, show (0 : W32) - 0 = 0 from rfl, maskWords_zero, Nat.add_zero]
  · next h =>
    have : s.head &&& 1 = 1 := BitVec.eq_of_toNat_eq (by rw [hb]; show s.val % 2 = 1; omega)
    rw [this, show (0 : W32) - 1 = BitVec.allOnes 32 from by decide, maskWords_ones]
    rw [show wordsNat SCALAR_Q.1 = q from SCALAR_Q_val]

theorem q_odd : q % 2 = 1 := by rw [q_def]; decide +kernel

/-- Twice the half is the scalar, modulo q; the half of a reduced scalar is reduced. -/
theorem halve_spec (s : Scalar) (h : s.val < q) : (halve s).val < q ∧ 2 * (halve s).val % q = s.val := by
  have hq := q_odd
  rw [halve_val]
  split
  · refine ⟨by omega, ?_⟩
    rw [show 2 * (s.val / 2) = s.val by omega, Nat.mod_eq_of_lt h]
  · refine ⟨by omega, ?_⟩
    rw [show 2 * ((s.val + q) / 2) = s.val + q by omega, Nat.add_mod_right, Nat.mod_eq_of_lt h]

end Ed448
