import Verif.Model.Scalar
import Verif.Math.Order
import Mathlib.Tactic.Ring
import Mathlib.Tactic.LinearCombination

/-!
# Scalars as natural numbers: addition, subtraction, halving
-/

set_option exponentiation.threshold 1000

namespace Ed448

/-- The number represented by a list of 32-bit words, least significant first. -/
def wordsNat : List W32 → ℕ
  | [] => 0
  | w :: ws => w.toNat + 2 ^ 32 * wordsNat ws

/-- The number represented by a scalar. -/
def Scalar.val (s : Scalar) : ℕ := wordsNat s.1

theorem wordsNat_lt : ∀ l, wordsNat l < 2 ^ (32 * l.length)
  | [] => by simp [wordsNat]
  | w :: ws => by
    have h1 := wordsNat_lt ws
    have h2 := w.isLt
    rw [wordsNat, List.length_cons, show 32 * (ws.length + 1) = 32 + 32 * ws.length by ring, pow_add]
    generalize 2 ^ (32 * ws.length) = t at *
    have : 2 ^ 32 * (wordsNat ws + 1) ≤ 2 ^ 32 * t := Nat.mul_le_mul_left _ h1
    omega

theorem Scalar.val_lt (s : Scalar) : s.val < 2 ^ 448 := by
  have := wordsNat_lt s.1
  rwa [s.2] at this

theorem wordsNat_inj : ∀ {a b : List W32}, a.length = b.length → wordsNat a = wordsNat b → a = b
  | [], [], _, _ => rfl
  | x :: xs, y :: ys, hl, h => by
    have hx := x.isLt
    have hy := y.isLt
    simp only [wordsNat] at h
    have h1 : x = y := BitVec.eq_of_toNat_eq (by omega)
    have h2 := wordsNat_inj (a := xs) (b := ys) (by simpa using hl) (by subst h1; omega)
    rw [h1, h2]

theorem Scalar.val_inj {a b : Scalar} (h : a.val = b.val) : a = b :=
  Subtype.ext (wordsNat_inj (a.2.trans b.2.symm) h)

theorem SCALAR_Q_val : SCALAR_Q.val = q := by rw [← qN_eq]; decide +kernel
theorem SCALAR_ZERO_val : SCALAR_ZERO.val = 0 := by decide +kernel
theorem SCALAR_ONE_val : SCALAR_ONE.val = 1 := by decide +kernel
theorem SCALAR_FOUR_val : SCALAR_FOUR.val = 4 := by decide +kernel
theorem SCALAR_R2_val : SCALAR_R2.val = 2 ^ 896 % q := by rw [← qN_eq]; decide +kernel

theorem q_pos : 0 < q := q_prime.pos

/-! ## `sub_extra` -/

theorem toNat_ofInt32 (d : ℤ) : ((BitVec.ofInt 32 d).toNat : ℤ) = d - 2 ^ 32 * (d / 2 ^ 32) := by
  rw [BitVec.toNat_ofInt]
  have hn : 0 ≤ d % 2 ^ 32 := Int.emod_nonneg _ (by norm_num)
  have hd := Int.emod_add_mul_ediv d (2 ^ 32)
  have : ((d % ((2 ^ 32 : ℕ) : ℤ)).toNat : ℤ) = d % 2 ^ 32 := Int.toNat_of_nonneg hn
  rw [this]
  linear_combination hd

theorem subChain_spec : ∀ (a b : List W32) (c : ℤ), a.length = b.length →
    (wordsNat (subChain a b c).1 : ℤ) + 2 ^ (32 * a.length) * (subChain a b c).2 = wordsNat a - wordsNat b + c
  | [], [], c, _ => by simp [subChain, wordsNat]
  | m :: ms, s :: ss, c, h => by
    have ih := subChain_spec ms ss ((c + ((m.toNat : ℤ) - s.toNat)) / 2 ^ 32) (by simpa using h)
    simp only [subChain, wordsNat, List.length_cons]
    rw [show 32 * (ms.length + 1) = 32 + 32 * ms.length by ring, pow_add]
    simp only [Nat.cast_add, Nat.cast_mul, Nat.cast_pow, Nat.cast_ofNat, toNat_ofInt32]
    generalize (2 : ℤ) ^ (32 * ms.length) = t at *
    linear_combination (2 : ℤ) ^ 32 * ih

theorem addMaskChain_zero : ∀ (a b : List W32), a.length = b.length → addMaskChain 0 a b 0 = a
  | [], [], _ => rfl
  | x :: xs, y :: ys, h => by
    have hx := x.isLt
    have ih := addMaskChain_zero xs ys (by simpa using h)
    have h0 : (u64 y &&& BitVec.ofInt 64 0).toNat = 0 := by
      rw [BitVec.toNat_and, BitVec.toNat_ofInt]
      show _ &&& 0 = 0
      exact Nat.and_zero _
    rw [addMaskChain, h0]
    have h1 : (0 + ((x.toNat : ℤ) + (0 : ℕ))) = (x.toNat : ℤ) := by simp
    rw [h1]
    have h2 : (x.toNat : ℤ) / 2 ^ 32 = 0 := Int.ediv_eq_zero_of_lt (by positivity) (by exact_mod_cast hx)
    rw [h2, ih]
    congr 1
    apply BitVec.eq_of_toNat_eq
    have := toNat_ofInt32 x.toNat
    rw [h2] at this
    omega

theorem addMaskChain_neg : ∀ (a b : List W32) (c : ℤ), a.length = b.length → ∃ k : ℤ,
    (wordsNat (addMaskChain (-1) a b c) : ℤ) + 2 ^ (32 * a.length) * k = wordsNat a + wordsNat b + c
  | [], [], c, _ => ⟨c, by simp [addMaskChain, wordsNat]⟩
  | x :: xs, y :: ys, c, h => by
    have h0 : (u64 y &&& BitVec.ofInt 64 (-1)).toNat = y.toNat := by
      have : BitVec.ofInt 64 (-1) = BitVec.allOnes 64 := by decide
      rw [this, BitVec.and_allOnes, BitVec.toNat_setWidth, Nat.mod_eq_of_lt]
      have := y.isLt
      omega
    obtain ⟨k, ih⟩ := addMaskChain_neg xs ys ((c + ((x.toNat : ℤ) + (y.toNat : ℕ))) / 2 ^ 32) (by simpa using h)
    refine ⟨k, ?_⟩
    rw [addMaskChain, h0]
    simp only [wordsNat, List.length_cons]
    rw [show 32 * (xs.length + 1) = 32 + 32 * xs.length by ring, pow_add]
    simp only [Nat.cast_add, Nat.cast_mul, Nat.cast_pow, Nat.cast_ofNat, toNat_ofInt32]
    generalize (2 : ℤ) ^ (32 * xs.length) = t at *
    linear_combination (2 : ℤ) ^ 32 * ih

/-- `sub_extra` computes `minuend + carry * 2^448 - subtrahend` modulo q, if that is between `-q` and `q`. -/
theorem sub_extra_int (a b : Scalar) (c : W32) (h1 : b.val ≤ a.val + c.toNat * 2 ^ 448 + q)
    (h2 : a.val + c.toNat * 2 ^ 448 < b.val + q) :
    (sub_extra a b c).val = if b.val ≤ a.val + c.toNat * 2 ^ 448 then a.val + c.toNat * 2 ^ 448 - b.val
      else a.val + c.toNat * 2 ^ 448 + q - b.val := by
  have hs := subChain_spec a.1 b.1 0 (a.2.trans b.2.symm)
  have hl : (subChain a.1 b.1 0).1.length = 14 := by rw [subChain_length, a.2, b.2]; rfl
  have hb := wordsNat_lt (subChain a.1 b.1 0).1
  rw [hl] at hb
  rw [a.2] at hs
  have hq := q_lt
  unfold sub_extra Scalar.val
  simp only
  generalize (subChain a.1 b.1 0).2 = ch at *
  generalize (subChain a.1 b.1 0).1 = r at *
  change wordsNat b.1 ≤ wordsNat a.1 + _ + _ at h1
  change wordsNat a.1 + _ < wordsNat b.1 + _ at h2
  have hcase : ch + (c.toNat : ℤ) = 0 ∨ ch + (c.toNat : ℤ) = -1 := by omega
  rcases hcase with h | h
  · rw [h, addMaskChain_zero _ _ (hl.trans SCALAR_Q.2.symm), if_pos (by omega)]
    omega
  · rw [h, if_neg (by omega)]
    obtain ⟨k, hk⟩ := addMaskChain_neg r SCALAR_Q.1 0 (hl.trans SCALAR_Q.2.symm)
    have hb' := wordsNat_lt (addMaskChain (-1) r SCALAR_Q.1 0)
    rw [addMaskChain_length, hl, SCALAR_Q.2] at hb'
    rw [hl] at hk
    have hQ : wordsNat SCALAR_Q.1 = q := SCALAR_Q_val
    rw [hQ] at hk
    simp only [Nat.min_self] at hb'
    omega

theorem sub_extra_val (a b : Scalar) (c : W32) (h1 : b.val ≤ a.val + c.toNat * 2 ^ 448 + q)
    (h2 : a.val + c.toNat * 2 ^ 448 < b.val + q) :
    (sub_extra a b c).val = (a.val + c.toNat * 2 ^ 448 + q - b.val) % q := by
  have hq := q_pos
  rw [sub_extra_int a b c h1 h2]
  split
  · rw [show a.val + c.toNat * 2 ^ 448 + q - b.val = (a.val + c.toNat * 2 ^ 448 - b.val) + q by omega,
      Nat.add_mod_right, Nat.mod_eq_of_lt]
    omega
  · rw [Nat.mod_eq_of_lt]
    omega

/-! ## `add`, `sub` and `halve` -/

theorem addChain_spec : ∀ (a b : List W32) (c : ℕ), a.length = b.length →
    wordsNat (addChain a b c).1 + 2 ^ (32 * a.length) * (addChain a b c).2 = wordsNat a + wordsNat b + c
  | [], [], c, _ => by simp [addChain, wordsNat]
  | m :: ms, s :: ss, c, h => by
    have ih := addChain_spec ms ss ((c + (m.toNat + s.toNat)) / 2 ^ 32) (by simpa using h)
    simp only [addChain, wordsNat, List.length_cons, BitVec.toNat_ofNat]
    rw [show 32 * (ms.length + 1) = 32 + 32 * ms.length by ring, pow_add]
    have hd := Nat.mod_add_div (c + (m.toNat + s.toNat)) (2 ^ 32)
    generalize (c + (m.toNat + s.toNat)) / 2 ^ 32 = e at *
    generalize (c + (m.toNat + s.toNat)) % 2 ^ 32 = f at *
    generalize 2 ^ (32 * ms.length) = t at *
    linear_combination 2 ^ 32 * ih + hd

/-- `add` adds modulo q, if the sum of its arguments is below 2q. -/
theorem scalarAdd_val (a b : Scalar) (h : a.val + b.val < 2 * q) : (scalarAdd a b).val = (a.val + b.val) % q := by
  have hs := addChain_spec a.1 b.1 0 (a.2.trans b.2.symm)
  have hl : (addChain a.1 b.1 0).1.length = 14 := by rw [addChain_length, a.2, b.2]; rfl
  rw [a.2] at hs
  have hq := q_lt
  change _ = a.val + b.val + 0 at hs
  unfold scalarAdd
  simp only
  have hc : (BitVec.ofNat 32 (addChain a.1 b.1 0).2).toNat = (addChain a.1 b.1 0).2 := by
    rw [BitVec.toNat_ofNat, Nat.mod_eq_of_lt]
    omega
  have hv : Scalar.val ⟨(addChain a.1 b.1 0).1, hl⟩ = wordsNat (addChain a.1 b.1 0).1 := rfl
  rw [sub_extra_val]
  all_goals rw [hv, hc, SCALAR_Q_val]
  · rw [Nat.add_sub_cancel]; congr 1; omega
  · omega
  · omega

theorem scalarSub_val (a b : Scalar) (ha : a.val < q) (hb : b.val < q) :
    (scalarSub a b).val = (a.val + q - b.val) % q := by
  have h0 : (0 : W32).toNat = 0 := rfl
  unfold scalarSub
  rw [sub_extra_val]
  all_goals rw [show BitVec.toNat (0 : W32) = 0 from rfl, Nat.zero_mul, Nat.add_zero]
  all_goals omega

end Ed448
