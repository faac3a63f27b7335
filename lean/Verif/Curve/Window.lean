import Verif.Curve.RepSys

/-!
# Multiplication of a point with a fixed window
-/

set_option exponentiation.threshold 1000

namespace Ed448

/-- The five bits of the window at `i1`. -/
theorem window_digit (s : List W32) (hs : s.length = 14) (i1 : ℕ) (hi : i1 < 446) :
    ∃ b : W32, windowBits s i1 = .ok (b ^^^ ((b >>> 4) - (@OfNat.ofNat (BitVec 32) 1 BitVec.instOfNat)),
        (b >>> 4) - (@OfNat.ofNat (BitVec 32) 1 BitVec.instOfNat)) ∧
      b.toNat = wordsNat s / 2 ^ i1 % 2 ^ 5 := by
  have h0 : i1 / 32 < s.length := by omega
  have key : ∀ w : W32, (∀ n < 5, w.getLsbD n = (wordsNat s).testBit (i1 + n)) →
      (w &&& (@OfNat.ofNat (BitVec 32) 31 BitVec.instOfNat)).toNat = wordsNat s / 2 ^ i1 % 2 ^ 5 := by
    intro w hw
    have e : (w &&& (@OfNat.ofNat (BitVec 32) 31 BitVec.instOfNat)).toNat = w.toNat % 2 ^ 5 := by
      rw [BitVec.toNat_and, show (@OfNat.ofNat (BitVec 32) 31 BitVec.instOfNat).toNat = 2 ^ 5 - 1 from rfl, Nat.and_two_pow_sub_one_eq_mod]
    rw [e]
    apply Nat.eq_of_testBit_eq
    intro n
    rw [Nat.testBit_mod_two_pow, Nat.testBit_mod_two_pow, Nat.testBit_div_two_pow]
    by_cases hn : n < 5
    · have := hw n hn
      rw [BitVec.getLsbD] at this
      rw [this, Nat.add_comm]
    · simp [hn]
  unfold windowBits
  rw [idx_ok h0]
  by_cases h1 : i1 % 32 ≥ 32 - 5 ∧ i1 / 32 < 14 - 1
  · have h2 : i1 / 32 + 1 < s.length := by omega
    refine ⟨_, ?_, key (s[i1 / 32] >>> (i1 % 32) ^^^ s[i1 / 32 + 1] <<< (32 - i1 % 32)) ?_⟩
    · show (ite (i1 % 32 ≥ 32 - 5 ∧ i1 / 32 < 14 - 1) _ _ : Rust _) = _
      rw [if_pos h1, idx_ok h2]
      rfl
    · intro n hn
      rw [BitVec.getLsbD_xor, BitVec.getLsbD_ushiftRight, BitVec.getLsbD_shiftLeft, word_bit, word_bit]
      have e1 : 32 * (i1 / 32) + (i1 % 32 + n) = i1 + n := by omega
      rw [e1]
      by_cases h3 : i1 % 32 + n < 32
      · have h4 : n < 32 - i1 % 32 := by omega
        simp [h3, h4]
      · have h4 : ¬ n < 32 - i1 % 32 := by omega
        have e2 : 32 * (i1 / 32 + 1) + (n - (32 - i1 % 32)) = i1 + n := by omega
        have h5 : n - (32 - i1 % 32) < 32 := by omega
        have h6 : n < 32 := by omega
        simp [h3, h4, e2, h5, h6]
  · refine ⟨_, ?_, key (s[i1 / 32] >>> (i1 % 32)) ?_⟩
    · show (ite (i1 % 32 ≥ 32 - 5 ∧ i1 / 32 < 14 - 1) _ _ : Rust _) = _
      rw [if_neg h1]
      rfl
    · intro n hn
      rw [BitVec.getLsbD_ushiftRight, word_bit]
      have e1 : 32 * (i1 / 32) + (i1 % 32 + n) = i1 + n := by omega
      rw [e1]
      by_cases h3 : i1 % 32 + n < 32
      · simp [h3]
      · have h7 : wordsNat s < 2 ^ (i1 + n) := by
          have := wordsNat_lt s
          rw [hs] at this
          exact lt_of_lt_of_le this (Nat.pow_le_pow_right (by norm_num) (by omega))
        rw [Nat.testBit_lt_two_pow h7, Bool.and_false]

/-- Index and sign for each value of the window. -/
theorem window_select (b : W32) (hb : b.toNat < 32) : ∃ neg : Bool,
    (b >>> 4) - (@OfNat.ofNat (BitVec 32) 1 BitVec.instOfNat) = maskOf neg ∧
    ((b ^^^ maskOf neg).toNat &&& 15) < 16 ∧
    (if neg then -(2 * (((b ^^^ maskOf neg).toNat &&& 15 : ℕ) : ℤ) + 1) else 2 * (((b ^^^ maskOf neg).toNat &&& 15 : ℕ) : ℤ) + 1) =
      2 * (b.toNat : ℤ) - 31 := by
  have e : b = BitVec.ofNat 32 b.toNat := by simp
  generalize b.toNat = n at e hb
  subst e
  refine ⟨decide (n < 16), ?_⟩
  interval_cases n <;> decide

variable {G : Type} [AddCommGroup G] (S : RepSys G)

theorem RepSys.fixedWindow {pn : PNiels} {A : G} (hpn : S.pn pn ((2 : ℤ) • A)) : ∀ (k : ℕ) (P : Pt) (m : ℤ),
    S.repT P ((2 * m + 1) • A) → ∃ l, fixedWindowLoop pn k P = .ok l ∧ l.length = k ∧
      ∀ i (h : i < l.length), S.pn l[i] ((2 * (m + 1 + i) + 1) • A)
  | 0, P, m, _ => ⟨[], rfl, rfl, fun i h => absurd h (by simp)⟩
  | k + 1, P, m, hP => by
    have h1 := (S.addP false hP hpn).2 rfl
    rw [← add_smul, show 2 * m + 1 + 2 = 2 * (m + 1) + 1 by ring] at h1
    obtain ⟨e, h2, h3⟩ := S.toP h1
    obtain ⟨l, h4, h5, h6⟩ := RepSys.fixedWindow hpn k _ _ h1
    refine ⟨e :: l, ?_, by simp [h5], ?_⟩
    · rw [fixedWindowLoop, h2]
      show (Except.bind (fixedWindowLoop pn k (P.add_projected_niels_to_extended pn false)) _ : Rust _) = _
      rw [h4]
      rfl
    · intro i hi
      cases i with
      | zero => simpa using h3
      | succ i =>
        have := h6 i (by simpa using hi)
        rw [List.getElem_cons_succ, Nat.cast_succ, show m + 1 + ((i : ℤ) + 1) = m + 1 + 1 + i by ring]
        exact this

attribute [local irreducible] fixedWindowLoop Pt.to_projected_niels Pt.double_internal

theorem RepSys.prepare {P : Pt} {A : G} (h : S.repT P A) : ∃ l, P.prepare_fixed_window = .ok l ∧ l.length = 16 ∧ S.Odds l A := by
  have h1 := (S.dbl false (S.weak h)).2 rfl
  obtain ⟨pn, h2, h3⟩ := S.toP h1
  obtain ⟨e, h4, h5⟩ := S.toP h
  obtain ⟨l, h6, h7, h8⟩ := S.fixedWindow (pn := pn) (A := A) (by rw [two_zsmul]; exact h3) 15 P 0 (by simpa using h)
  refine ⟨e :: l, ?_, by simp [h7], ?_⟩
  · unfold Pt.prepare_fixed_window
    dsimp only
    rw [h2, bind_ok, h4, bind_ok, h6, bind_ok]
    rfl
  · intro i hi
    cases i with
    | zero => simpa using h5
    | succ i =>
      have := h8 i (by simpa using hi)
      rw [List.getElem_cons_succ, Nat.cast_succ, show (i : ℤ) + 1 = 0 + 1 + i by ring]
      exact this

theorem RepSys.select {l : List PNiels} {A : G} (hl : l.length = 16) (ho : S.Odds l A) (s : List W32) (hs : s.length = 14)
    (i1 : ℕ) (hi : i1 < 446) : ∃ n, selectMultiple l s i1 = .ok n ∧ S.pn n ((2 * ((wordsNat s / 2 ^ i1 % 2 ^ 5 : ℕ) : ℤ) - 31) • A) := by
  obtain ⟨b, h1, h2⟩ := window_digit s hs i1 hi
  obtain ⟨neg, h3, h4, h5⟩ := window_select b (by rw [h2]; exact Nat.mod_lt _ (by norm_num))
  rw [h3] at h1
  have h6 := ho _ (by rw [hl]; exact h4)
  have h7 := S.negP neg h6
  have h8 : (if neg then -((2 * (((b ^^^ maskOf neg).toNat &&& 15 : ℕ) : ℤ) + 1) • A) else (2 * (((b ^^^ maskOf neg).toNat &&& 15 : ℕ) : ℤ) + 1) • A) =
      (2 * ((wordsNat s / 2 ^ i1 % 2 ^ 5 : ℕ) : ℤ) - 31) • A := by
    rw [← h2, ← h5]
    cases neg
    · simp
    · simp only [if_true, neg_smul]
  rw [h8] at h7
  refine ⟨_, ?_, h7⟩
  unfold selectMultiple
  rw [h1, bind_ok]
  dsimp only
  rw [idx_ok (by rw [hl]; exact h4), bind_ok]
  rfl

theorem RepSys.mulLoop {l : List PNiels} {A : G} (hl : l.length = 16) (ho : S.Odds l A) (s : List W32) (hs : s.length = 14) :
    ∀ (k j : ℕ) (P : Pt), k + j = 90 → k < 90 →
      S.repT P ((2 * ((wordsNat s / 2 ^ (5 * k) : ℕ) : ℤ) - (2 ^ (5 * j) - 1)) • A) →
      ∃ P', scalarMulLoop l s k P = .ok P' ∧ S.repT P' ((2 * (wordsNat s : ℤ) - (2 ^ 450 - 1)) • A)
  | 0, j, P, hkj, _, hP => by
    obtain rfl : j = 90 := by omega
    refine ⟨P, rfl, ?_⟩
    simpa using hP
  | k + 1, j, P, hkj, hk, hP => by
    obtain ⟨n, h1, h2⟩ := S.select hl ho s hs (5 * k) (by omega)
    have h3 := S.doubleTimes 4 (S.weak hP)
    have h4 := (S.dbl false h3).2 rfl
    have h5 := (S.addP false h4 h2).2 rfl
    obtain ⟨P', h6, h7⟩ := RepSys.mulLoop hl ho s hs k (j + 1) _ (by omega) (by omega) (by
      convert h5 using 1
      rw [← mul_smul, ← add_smul, ← add_smul]
      congr 1
      have e : wordsNat s / 2 ^ (5 * k) = 32 * (wordsNat s / 2 ^ (5 * (k + 1))) + wordsNat s / 2 ^ (5 * k) % 2 ^ 5 := by
        rw [Nat.mul_succ 5 k, Nat.pow_add, ← Nat.div_div_eq_div_mul]
        omega
      have e2 := congrArg (Nat.cast (R := ℤ)) e
      rw [Nat.cast_add, Nat.cast_mul] at e2
      generalize ((wordsNat s / 2 ^ (5 * k) : ℕ) : ℤ) = a at e2 ⊢
      generalize ((wordsNat s / 2 ^ (5 * (k + 1)) : ℕ) : ℤ) = b at e2 ⊢
      rw [e2, Nat.mul_succ 5 j, pow_add]
      push_cast
      ring)
    refine ⟨P', ?_, h7⟩
    rw [scalarMulLoop, h1]
    exact h6

attribute [local irreducible] scalarMulLoop selectMultiple Pt.prepare_fixed_window

/-- Multiplication with a window never panics. The result represents the recoded multiple. -/
theorem RepSys.scalar_mul {P : Pt} {A : G} (h : S.repT P A) (s : Scalar) :
    ∃ P', P.point_scalar_mul s = .ok P' ∧ S.repT P' (recoded s • A) := by
  obtain ⟨l, h1, h2, h3⟩ := S.prepare h
  obtain ⟨n, h4, h5⟩ := S.select h2 h3 (adjHalf s).1 (adjHalf s).2 445 (by norm_num)
  have h6 := S.ofP h5
  obtain ⟨P', h7, h8⟩ := S.mulLoop h2 h3 (adjHalf s).1 (adjHalf s).2 89 1 _ rfl (by norm_num) (by
    convert h6 using 3
    have := (adjHalf s).val_lt
    have e : (adjHalf s).val / 2 ^ (5 * 89) < 32 := by
      rw [Nat.div_lt_iff_lt_mul (by positivity)]
      exact lt_trans this (by norm_num)
    have e1 : wordsNat (adjHalf s).1 / 2 ^ 445 % 2 ^ 5 = wordsNat (adjHalf s).1 / 2 ^ (5 * 89) := Nat.mod_eq_of_lt e
    rw [e1]
    norm_num)
  refine ⟨P', ?_, h8⟩
  unfold Pt.point_scalar_mul
  dsimp only
  rw [h1, bind_ok]
  rw [show (halve (scalarAdd s scalar_adjustment)) = adjHalf s from rfl, h4, bind_ok]
  exact h7

/-- For coordinates within bounds, on the curve or not, the multiplication does not panic. -/
theorem point_scalar_mul_red {P : Pt} (h : P.Red) (s : Scalar) : ∃ P', P.point_scalar_mul s = .ok P' ∧ P'.Red :=
  redSys.scalar_mul (A := ⟨⟩) h s

theorem point_scalar_mul_rep {P : Pt} {A : E} (h : RepT P A) (s : Scalar) :
    ∃ P', P.point_scalar_mul s = .ok P' ∧ RepT P' (recoded s • A) := curveSys.scalar_mul h s

end Ed448
