import Verif.Curve.Digits

/-!
# Multiplication of the base point with the comb tables
-/

set_option exponentiation.threshold 1000

namespace Ed448

/-- Bit `k` of the index into comb `j` at position `i`. -/
def combBit (h i j k : ℕ) : Bool := h.testBit (i + 18 * (k + j * 5))

/-- The five-bit index. -/
def tabOf (b0 b1 b2 b3 b4 : Bool) : W32 :=
  ((((@OfNat.ofNat (BitVec 32) 0 BitVec.instOfNat ||| wbit b0 <<< 0) ||| wbit b1 <<< 1) ||| wbit b2 <<< 2) ||| wbit b3 <<< 3) ||| wbit b4 <<< 4

theorem combTab_step (s : List W32) (hs : s.length = 14) (hl : wordsNat s < 2 ^ 446) (i j k : ℕ) (ks : List ℕ) (tab : W32) :
    combTab s i j (k :: ks) tab = combTab s i j ks (tab ||| wbit (combBit (wordsNat s) i j k) <<< k) := by
  rw [combTab]
  by_cases hb : i + 18 * (k + j * 5) < 446
  · have hi : (i + 18 * (k + j * 5)) / 32 < s.length := by omega
    simp only [hb, if_true, idx_ok hi]
    have := bit_extract s (i + 18 * (k + j * 5)) hi
    show combTab s i j ks (tab ||| ((s[(i + 18 * (k + j * 5)) / 32] >>> ((i + 18 * (k + j * 5)) % 32)) &&& _) <<< k) = _
    rw [this]
    rfl
  · simp only [hb, if_false]
    have e : combBit (wordsNat s) i j k = false := by
      unfold combBit
      apply Nat.testBit_lt_two_pow
      exact lt_of_lt_of_le hl (Nat.pow_le_pow_right (by norm_num) (by omega))
    rw [e]
    show combTab s i j ks tab = _
    congr 1
    simp [wbit]

theorem sgn_beq_false (b : Bool) : sgn (b == false) = -sgn b := by cases b <;> simp [sgn]

theorem sgn_beq_true (b : Bool) : sgn (b == true) = sgn b := by cases b <;> simp [sgn]

/-- The integer multiple of the base point selected for comb `j` at position `i`. -/
def combInt (h i j : ℕ) : ℤ := ∑ k ∈ Finset.range 5, sgn (combBit h i j k) * 2 ^ (18 * (5 * j + k))

/-- The index, the mask, and what they select. -/
theorem tabOf_split (b0 b1 b2 b3 b4 : Bool) : ∃ t : ℕ, t < 16 ∧
    (tabOf b0 b1 b2 b3 b4).sshiftRight 4 - (@OfNat.ofNat (BitVec 32) 1 BitVec.instOfNat) = maskOf (!b4) ∧
    ((tabOf b0 b1 b2 b3 b4 ^^^ maskOf (!b4)) &&& ((@OfNat.ofNat (BitVec 32) 1 BitVec.instOfNat <<< 4) - (@OfNat.ofNat (BitVec 32) 1 BitVec.instOfNat))).toNat = t ∧
    t.testBit 0 = (b0 == b4) ∧ t.testBit 1 = (b1 == b4) ∧ t.testBit 2 = (b2 == b4) ∧ t.testBit 3 = (b3 == b4) := by
  refine ⟨_, ?_, ?_, rfl, ?_⟩ <;> revert b0 b1 b2 b3 b4 <;> decide

theorem combSelect_rep (s : List W32) (hs : s.length = 14) (hl : wordsNat s < 2 ^ 446) (i j : ℕ) (hj : j < 5) :
    ∃ n, combSelect s i j = .ok n ∧ NRep n (combInt (wordsNat s) i j • B) := by
  unfold combSelect
  have hc : combTab s i j [0, 1, 2, 3, 4] 0 = .ok (tabOf (combBit (wordsNat s) i j 0) (combBit (wordsNat s) i j 1)
    (combBit (wordsNat s) i j 2) (combBit (wordsNat s) i j 3) (combBit (wordsNat s) i j 4)) := by
    rw [combTab_step s hs hl, combTab_step s hs hl, combTab_step s hs hl, combTab_step s hs hl, combTab_step s hs hl, combTab]
    rfl
  obtain ⟨t, ht, h1, h2, t0, t1, t2, t3⟩ := tabOf_split (combBit (wordsNat s) i j 0) (combBit (wordsNat s) i j 1)
    (combBit (wordsNat s) i j 2) (combBit (wordsNat s) i j 3) (combBit (wordsNat s) i j 4)
  have hidx : 16 * j + t < DECAF_PRECOMP_TABLE.length := by rw [comb_table_length]; omega
  have hrep := comb_table_rep j t hj ht hidx
  have hneg := conditional_negate_rep hrep.1 hrep.2 (!(combBit (wordsNat s) i j 4))
  refine ⟨_, ?_, hneg.1, ?_⟩
  · rw [hc]
    change (Except.bind (idx DECAF_PRECOMP_TABLE ((j <<< 4) + (((tabOf _ _ _ _ _ ^^^ ((tabOf _ _ _ _ _).sshiftRight 4 - (@OfNat.ofNat (BitVec 32) 1 BitVec.instOfNat)))
      &&& ((@OfNat.ofNat (BitVec 32) 1 BitVec.instOfNat <<< 4) - (@OfNat.ofNat (BitVec 32) 1 BitVec.instOfNat))).toNat)))
      (fun np => Except.ok (np.conditional_negate ((tabOf _ _ _ _ _).sshiftRight 4 - (@OfNat.ofNat (BitVec 32) 1 BitVec.instOfNat)))) : Rust TwistedNiels) = _
    rw [h1, h2]
    have e : (j <<< 4) + t = 16 * j + t := by rw [Nat.shiftLeft_eq]; omega
    rw [e, idx_ok hidx]
    rfl
  · convert hneg.2 using 1
    unfold combInt ecomb
    simp only [t0, t1, t2, t3, esign_eq, Finset.sum_range_succ, Finset.sum_range_zero, ← natCast_zsmul, Nat.cast_pow, Nat.cast_ofNat, ← mul_smul]
    cases combBit (wordsNat s) i j 4
    · simp only [Bool.not_false, if_true, sgn_beq_false]
      rw [show sgn false = -1 from rfl]
      simp only [← add_smul, ← neg_smul]
      congr 1
      ring
    · simp only [Bool.not_true, Bool.false_eq_true, if_false, sgn_beq_true]
      rw [show sgn true = 1 from rfl]
      simp only [← add_smul]
      congr 1
      ring

/-- Sum over the combs. -/
def combRow (h i : ℕ) : ℤ := ∑ j ∈ Finset.range 5, combInt h i j

theorem combInner_step (s : List W32) (i j : ℕ) (js : List ℕ) (p : Pt) (n : TwistedNiels) (h : combSelect s i j = .ok n) :
    combInner s i (j :: js) p = combInner s i js (if i ≠ 17 ∨ j ≠ 0 then p.add_niels_to_extended n (j == 4 && i != 0) else n.to_extended) := by
  rw [combInner, h]
  rfl

theorem combInner_rep (s : List W32) (hs : s.length = 14) (hl : wordsNat s < 2 ^ 446) (i : ℕ) (p : Pt) (A : E)
    (hp : if i = 17 then A = 0 else RepT p A) :
    ∃ p', combInner s i [0, 1, 2, 3, 4] p = .ok p' ∧ Rep p' (A + combRow (wordsNat s) i • B) := by
  obtain ⟨n0, c0, r0⟩ := combSelect_rep s hs hl i 0 (by norm_num)
  obtain ⟨n1, c1, r1⟩ := combSelect_rep s hs hl i 1 (by norm_num)
  obtain ⟨n2, c2, r2⟩ := combSelect_rep s hs hl i 2 (by norm_num)
  obtain ⟨n3, c3, r3⟩ := combSelect_rep s hs hl i 3 (by norm_num)
  obtain ⟨n4, c4, r4⟩ := combSelect_rep s hs hl i 4 (by norm_num)
  rw [combInner_step _ _ _ _ _ _ c0, combInner_step _ _ _ _ _ _ c1, combInner_step _ _ _ _ _ _ c2, combInner_step _ _ _ _ _ _ c3,
    combInner_step _ _ _ _ _ _ c4, combInner]
  have d0 : RepT (if i ≠ 17 ∨ 0 ≠ 0 then p.add_niels_to_extended n0 (0 == 4 && i != 0) else n0.to_extended)
      (A + combInt (wordsNat s) i 0 • B) := by
    by_cases h : i = 17
    · rw [if_pos h] at hp
      rw [if_neg (by simp [h]), hp, zero_add]
      exact niels_to_extended_rep r0
    · rw [if_neg h] at hp
      rw [if_pos (Or.inl h)]
      exact (add_niels_rep hp r0 _).2 rfl
  have d1 := (add_niels_rep d0 r1 (1 == 4 && i != 0)).2 rfl
  have d2 := (add_niels_rep d1 r2 (2 == 4 && i != 0)).2 rfl
  have d3 := (add_niels_rep d2 r3 (3 == 4 && i != 0)).2 rfl
  have d4 := (add_niels_rep d3 r4 (4 == 4 && i != 0)).1
  rw [if_pos (Or.inr (by norm_num : (1:ℕ) ≠ 0)), if_pos (Or.inr (by norm_num : (2:ℕ) ≠ 0)), if_pos (Or.inr (by norm_num : (3:ℕ) ≠ 0)),
    if_pos (Or.inr (by norm_num : (4:ℕ) ≠ 0))]
  refine ⟨_, rfl, ?_⟩
  convert d4 using 1
  simp only [combRow, Finset.sum_range_succ, Finset.sum_range_zero, zero_add, add_smul, add_assoc]

/-- Sum over the positions below `i`. -/
def combTotal (h : ℕ) (i : ℕ) : ℤ := ∑ n ∈ Finset.range i, combRow h n * 2 ^ n

theorem combOuter_step (s : List W32) (i : ℕ) (p p' : Pt)
    (h : combInner s i [0, 1, 2, 3, 4] (if i ≠ 17 then p.double_internal false else p) = .ok p') :
    combOuter s (i + 1) p = combOuter s i p' := by
  rw [combOuter]
  show (Except.bind (combInner s i [0, 1, 2, 3, 4] (if i ≠ 17 then p.double_internal false else p)) _ : Rust Pt) = _
  rw [h]
  rfl

theorem combOuter_rep (s : List W32) (hs : s.length = 14) (hl : wordsNat s < 2 ^ 446) : ∀ (i : ℕ) (p : Pt) (A : E), i ≤ 18 →
    (if i = 18 then A = 0 else Rep p A) → ∃ p', combOuter s i p = .ok p' ∧
      ((i = 0 → p' = p) ∧ (0 < i → Rep p' ((2 : ℤ) ^ i • A + combTotal (wordsNat s) i • B)))
  | 0, p, A, _, hp => ⟨p, rfl, fun _ => rfl, fun h => absurd h (by norm_num)⟩
  | i + 1, p, A, hi, hp => by
    have h1 : if i = 17 then A + A = 0 else RepT (if i ≠ 17 then p.double_internal false else p) (A + A) := by
      by_cases h : i = 17
      · rw [if_pos (by omega)] at hp
        rw [if_pos h, hp, add_zero]
      · rw [if_neg (by omega)] at hp
        rw [if_neg h, if_pos h]
        exact (double_rep hp false).2 rfl
    obtain ⟨p1, e1, r1⟩ := combInner_rep s hs hl i _ _ h1
    obtain ⟨p2, e2, r2, r3⟩ := combOuter_rep s hs hl i p1 _ (by omega) (by rw [if_neg (by omega)]; exact r1)
    refine ⟨p2, by rw [combOuter_step _ _ _ _ e1]; exact e2, fun h => absurd h (by omega), fun _ => ?_⟩
    have e3 : (2 : ℤ) ^ (i + 1) • A + combTotal (wordsNat s) (i + 1) • B =
        (2 : ℤ) ^ i • (A + A + combRow (wordsNat s) i • B) + combTotal (wordsNat s) i • B := by
      rw [combTotal, Finset.sum_range_succ, ← combTotal, smul_add, ← two_zsmul, ← mul_smul, ← mul_smul, add_smul, pow_succ]
      rw [mul_comm (combRow _ _)]
      abel
    rw [e3]
    rcases Nat.eq_zero_or_pos i with h0 | h0
    · subst h0
      rw [r2 rfl]
      simpa [combTotal] using r1
    · exact r3 h0

theorem combTotal_eq (h : ℕ) (hl : h < 2 ^ 450) : combTotal h 18 = 2 * (h : ℤ) - (2 ^ 450 - 1) := by
  have h1 := signed_sum h 450
  rw [Nat.mod_eq_of_lt hl, show 450 = 18 * 25 from rfl, sum_range_mul] at h1
  rw [← show 18 * 25 = 450 from rfl, ← h1]
  unfold combTotal combRow
  refine Finset.sum_congr rfl fun i _ => ?_
  rw [show 25 = 5 * 5 from rfl, sum_range_mul, Finset.sum_comm, Finset.sum_mul]
  refine Finset.sum_congr rfl fun j _ => ?_
  unfold combInt
  rw [Finset.sum_mul]
  refine Finset.sum_congr rfl fun k _ => ?_
  unfold combBit
  rw [show k + j * 5 = k + 5 * j by ring, show 5 * j + k = k + 5 * j by ring, mul_assoc, ← pow_add, Nat.add_comm i]

/-- The comb multiplication never panics and returns a representation of the multiple of the base point. -/
theorem precomputed_scalar_mul_rep {s : Scalar} (hs : s.val < q) :
    ∃ P, precomputed_scalar_mul s = .ok P ∧ Rep P (s.val • B) := by
  have hlt : (adjHalf s).val < 2 ^ 446 := lt_trans (adjHalf_lt hs) q_lt
  obtain ⟨P, h1, h2, h3⟩ := combOuter_rep (adjHalf s).1 (adjHalf s).2 hlt 18 Pt.zero 0 (le_refl _) (by simp)
  refine ⟨P, h1, ?_⟩
  have h4 := h3 (by norm_num)
  rw [smul_zero, zero_add, combTotal_eq (wordsNat (adjHalf s).1) (lt_trans hlt (by norm_num))] at h4
  obtain ⟨k, hk⟩ := recoded_mod hs
  have h5 : (2 * ((wordsNat (adjHalf s).1 : ℕ) : ℤ) - (2 ^ 450 - 1)) • B = s.val • B := by
    show recoded s • B = _
    rw [hk, add_smul, mul_smul, natCast_zsmul, natCast_zsmul, q_smul_B, smul_zero, add_zero]
  rw [h5] at h4
  exact h4

end Ed448
