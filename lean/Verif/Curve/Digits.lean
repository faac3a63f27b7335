import Verif.Curve.Tables
import Verif.Scalar.Bytes

/-!
# Bits and words of a scalar, and sums of signed powers of two
-/

set_option exponentiation.threshold 1000

namespace Ed448

theorem bind_ok {α β : Type} (a : α) (f : α → Rust β) : ((Except.ok a : Rust α) >>= f) = f a := rfl

theorem idx_ok {α : Type} {l : List α} {i : ℕ} (h : i < l.length) : idx l i = .ok l[i] := by
  unfold idx
  rw [List.getElem?_eq_getElem h]

/-- The word `i` of a list of words. -/
theorem word_toNat : ∀ (l : List W32) (i : ℕ) (h : i < l.length), (l[i]).toNat = wordsNat l / 2 ^ (32 * i) % 2 ^ 32
  | [], i, h => absurd h (by simp)
  | w :: ws, 0, _ => by
    have := w.isLt
    rw [List.getElem_cons_zero, wordsNat, Nat.mul_zero, Nat.pow_zero, Nat.div_one]
    omega
  | w :: ws, i + 1, h => by
    have := w.isLt
    rw [List.getElem_cons_succ, word_toNat ws i (by simpa using h), wordsNat, Nat.mul_add, Nat.mul_one, Nat.add_comm (32 * i), Nat.pow_add,
      ← Nat.div_div_eq_div_mul]
    have e : (w.toNat + 2 ^ 32 * wordsNat ws) / 2 ^ 32 = wordsNat ws := by omega
    rw [e]

theorem word_bit (l : List W32) (i : ℕ) (h : i < l.length) (m : ℕ) :
    (l[i]).getLsbD m = (decide (m < 32) && (wordsNat l).testBit (32 * i + m)) := by
  rw [BitVec.getLsbD, word_toNat, Nat.testBit_mod_two_pow, Nat.testBit_div_two_pow, Nat.add_comm]

/-- One bit as a word. -/
def wbit (b : Bool) : W32 := if b then 1 else 0

theorem wbit_getLsbD (b : Bool) (i : ℕ) : (wbit b).getLsbD i = (decide (i = 0) && b) := by
  cases b
  · simp [wbit]
  · simp [wbit]

theorem and_one_eq (x : W32) : x &&& (@OfNat.ofNat (BitVec 32) 1 BitVec.instOfNat) = wbit (x.getLsbD 0) := by
  apply BitVec.eq_of_getLsbD_eq
  intro i hi
  rw [BitVec.getLsbD_and, wbit_getLsbD, show (@OfNat.ofNat (BitVec 32) 1 BitVec.instOfNat) = 1#32 from rfl, BitVec.getLsbD_one]
  by_cases h : i = 0
  · subst h; simp
  · simp [h]

/-- Extraction of one bit of a scalar. -/
theorem bit_extract (l : List W32) (n : ℕ) (h : n / 32 < l.length) :
    (l[n / 32] >>> (n % 32)) &&& (@OfNat.ofNat (BitVec 32) 1 BitVec.instOfNat) = wbit ((wordsNat l).testBit n) := by
  rw [and_one_eq, BitVec.getLsbD_ushiftRight, word_bit, Nat.add_zero, Nat.div_add_mod, decide_eq_true (Nat.mod_lt _ (by norm_num)),
    Bool.true_and]

/-- Plus or minus one. -/
def sgn (b : Bool) : ℤ := if b then 1 else -1

theorem esign_eq (b : Bool) (C : E) : esign b C = sgn b • C := by
  cases b <;> simp [esign, sgn]

theorem sgn_not (b : Bool) : sgn (!b) = -sgn b := by cases b <;> simp [sgn]

/-- The signed binary expansion used by the code: a digit is `+1` where the bit is set and `-1` elsewhere. -/
theorem signed_sum (h : ℕ) : ∀ m : ℕ, ∑ n ∈ Finset.range m, sgn (h.testBit n) * 2 ^ n = 2 * ((h % 2 ^ m : ℕ) : ℤ) - (2 ^ m - 1)
  | 0 => by simp [Nat.mod_one]
  | m + 1 => by
    have e : h % 2 ^ (m + 1) = h % 2 ^ m + 2 ^ m * (h.testBit m).toNat := by
      rw [pow_succ, Nat.mod_mul, Nat.toNat_testBit]
    rw [Finset.sum_range_succ, signed_sum h m, e]
    cases h.testBit m <;> simp [sgn] <;> ring

theorem sum_range_mul (g : ℕ → ℤ) (a : ℕ) : ∀ b : ℕ,
    ∑ n ∈ Finset.range (a * b), g n = ∑ i ∈ Finset.range a, ∑ m ∈ Finset.range b, g (i + a * m)
  | 0 => by simp
  | b + 1 => by
    rw [Nat.mul_succ, Finset.sum_range_add, sum_range_mul g a b]
    simp only [Finset.sum_range_succ]
    rw [Finset.sum_add_distrib]
    simp only [Nat.add_comm (a * b)]

/-- The adjusted and halved scalar of both multiplication routines. -/
def adjHalf (s : Scalar) : Scalar := halve (scalarAdd s scalar_adjustment)

theorem scalar_adjustment_val : scalar_adjustment.val = (2 ^ 450 - 1) % q := by
  rw [← qN_eq]
  decide +kernel

/-- The integer whose signed binary digits are used. -/
def recoded (s : Scalar) : ℤ := 2 * ((adjHalf s).val : ℤ) - (2 ^ 450 - 1)

theorem adjHalf_lt {s : Scalar} (hs : s.val < q) : (adjHalf s).val < q := by
  have ha : scalar_adjustment.val < q := by rw [scalar_adjustment_val]; exact Nat.mod_lt _ q_pos
  have h1 := scalarAdd_val s scalar_adjustment (by omega)
  exact (halve_spec _ (by rw [h1]; exact Nat.mod_lt _ q_pos)).1

/-- It is congruent to the scalar. -/
theorem recoded_mod {s : Scalar} (hs : s.val < q) : ∃ k : ℤ, recoded s = s.val + k * q := by
  have ha : scalar_adjustment.val < q := by rw [scalar_adjustment_val]; exact Nat.mod_lt _ q_pos
  have h1 := scalarAdd_val s scalar_adjustment (by omega)
  have h2 := (halve_spec (scalarAdd s scalar_adjustment) (by rw [h1]; exact Nat.mod_lt _ q_pos)).2
  rw [h1, scalar_adjustment_val, Nat.add_mod_mod] at h2
  have h3 : 2 * (adjHalf s).val ≡ s.val + (2 ^ 450 - 1) [MOD q] := h2.trans rfl
  have h4 := (Nat.modEq_iff_dvd.mp h3.symm)
  obtain ⟨k, hk⟩ := h4
  refine ⟨k, ?_⟩
  unfold recoded
  have h5 : ((s.val + (2 ^ 450 - 1) : ℕ) : ℤ) = s.val + (2 ^ 450 - 1) := by
    rw [Nat.cast_add, Nat.cast_sub (Nat.one_le_two_pow)]; simp only [Nat.cast_pow, Nat.cast_ofNat, Nat.cast_one]
  rw [h5] at hk
  rw [Nat.cast_mul, Nat.cast_ofNat] at hk
  linarith

end Ed448
