import Verif.Spec.Digits
import Mathlib.Data.List.Induction
import Mathlib.Tactic.Linarith
import Mathlib.Tactic.Ring
import Mathlib.Data.Int.ModEq
import Mathlib.Algebra.Order.Ring.Abs
import Mathlib.Tactic.NormNum

/-!
# Every number has exactly one form with odd signed digits
-/

namespace Ed448

theorem digitsSum_append (L L' : List (ℕ × ℤ)) : digitsSum (L ++ L') = digitsSum L + digitsSum L' := by
  simp [digitsSum]

theorem digitsSum_one (a : ℕ × ℤ) : digitsSum [a] = a.2 * 2 ^ a.1 := by
  simp [digitsSum]

/-- Digits at higher places are a multiple of the power. -/
theorem digitsSum_dvd {k : ℕ} : ∀ {L : List (ℕ × ℤ)}, (∀ d ∈ L, k ≤ d.1) → (2 : ℤ) ^ k ∣ digitsSum L
  | [], _ => by simp [digitsSum]
  | d :: L, h => by
    rw [digitsSum, List.map_cons, List.sum_cons]
    exact dvd_add (dvd_mul_of_dvd_right (pow_dvd_pow 2 (h d (by simp))) _) (digitsSum_dvd fun x hx => h x (List.mem_cons_of_mem _ hx))

/-- The lowest digit and the rest. -/
theorem SignedDigits.last {w : ℕ} {n : ℤ} {L : List (ℕ × ℤ)} {a : ℕ × ℤ} (h : SignedDigits w n (L ++ [a])) :
    SignedDigits w (n - a.2 * 2 ^ a.1) L ∧ a.2 % 2 = 1 ∧ |a.2| < 2 ^ w ∧ ∃ k, n = 2 ^ a.1 * (a.2 + 2 ^ (w + 1) * k) := by
  have hp := List.pairwise_append.mp h.apart
  have hs := h.sum
  rw [digitsSum_append, digitsSum_one] at hs
  refine ⟨⟨fun d hd => h.odd d (List.mem_append_left _ hd), fun d hd => h.small d (List.mem_append_left _ hd), hp.1, by linarith⟩,
    h.odd a (by simp), h.small a (by simp), ?_⟩
  obtain ⟨k, hk⟩ := digitsSum_dvd (k := a.1 + (w + 1)) (L := L) fun d hd => by
    have := hp.2.2 d hd a (by simp)
    omega
  refine ⟨k, ?_⟩
  rw [← hs, hk, pow_add]
  ring

/-- Two odd numbers times powers of 2. -/
theorem power_unique {i j : ℕ} {a b : ℤ} (ha : a % 2 = 1) (h : 2 ^ i * a = 2 ^ j * b) : j ≤ i := by
  by_contra hc
  obtain ⟨k, rfl⟩ : ∃ k, j = i + (k + 1) := ⟨j - i - 1, by omega⟩
  rw [pow_add, mul_assoc] at h
  have h := mul_left_cancel₀ (show (2 : ℤ) ^ i ≠ 0 by positivity) h
  rw [pow_succ'] at h
  have : a = 2 * (2 ^ k * b) := by rw [h]; ring
  omega

theorem odd_add {a : ℤ} (h : a % 2 = 1) (w : ℕ) (k : ℤ) : (a + 2 ^ (w + 1) * k) % 2 = 1 := by
  rw [pow_succ', mul_assoc]
  omega

theorem SignedDigits.unique {w : ℕ} {n : ℤ} {L L' : List (ℕ × ℤ)} (h : SignedDigits w n L) (h' : SignedDigits w n L') : L = L' := by
  induction L using List.reverseRecOn generalizing n L' with
  | nil =>
    induction L' using List.reverseRecOn with
    | nil => rfl
    | append_singleton L' b _ =>
      obtain ⟨-, b1, -, k, hk⟩ := h'.last
      have := h.sum
      rw [digitsSum, List.map_nil, List.sum_nil] at this
      rw [← this] at hk
      have h2 := odd_add b1 w k
      rcases mul_eq_zero.mp hk.symm with h3 | h3
      · exact absurd h3 (by positivity)
      · rw [h3] at h2
        norm_num at h2
  | append_singleton L a ih =>
    obtain ⟨ra, a1, a2, k, hk⟩ := h.last
    induction L' using List.reverseRecOn with
    | nil =>
      have := h'.sum
      rw [digitsSum, List.map_nil, List.sum_nil] at this
      rw [← this] at hk
      have h2 := odd_add a1 w k
      rcases mul_eq_zero.mp hk.symm with h3 | h3
      · exact absurd h3 (by positivity)
      · rw [h3] at h2
        norm_num at h2
    | append_singleton L' b _ =>
      obtain ⟨rb, b1, b2, l, hl⟩ := h'.last
      have e := hk.symm.trans hl
      have i1 := power_unique (odd_add a1 w k) e
      have i2 := power_unique (odd_add b1 w l) e.symm
      have e1 : a.1 = b.1 := le_antisymm i2 i1
      rw [e1] at e
      have e := mul_left_cancel₀ (show (2 : ℤ) ^ b.1 ≠ 0 by positivity) e
      have e2 : a.2 = b.2 := by
        have h1 : a.2 - b.2 = 2 ^ (w + 1) * (l - k) := by linarith
        have h2 : |a.2 - b.2| < 2 ^ (w + 1) := by
          calc |a.2 - b.2| ≤ |a.2| + |b.2| := abs_sub _ _
            _ < 2 ^ w + 2 ^ w := add_lt_add a2 b2
            _ = 2 ^ (w + 1) := by ring
        have h3 := Int.eq_zero_of_abs_lt_dvd ⟨_, h1⟩ h2
        omega
      have hab : a = b := Prod.ext e1 e2
      subst hab
      rw [ih ra rb]

theorem digitsSum_shift (k : ℕ) (L : List (ℕ × ℤ)) : digitsSum (L.map fun d => (d.1 + k, d.2)) = 2 ^ k * digitsSum L := by
  induction L with
  | nil => simp [digitsSum]
  | cons d L ih =>
    rw [digitsSum, digitsSum, List.map_cons, List.map_cons, List.map_cons, List.sum_cons, List.sum_cons, mul_add, ← digitsSum, ← digitsSum, ← ih]
    dsimp only
    rw [pow_add]
    ring

theorem SignedDigits.shift {w : ℕ} {n : ℤ} {L : List (ℕ × ℤ)} (k : ℕ) (h : SignedDigits w n L) :
    SignedDigits w (2 ^ k * n) (L.map fun d => (d.1 + k, d.2)) := by
  refine ⟨?_, ?_, ?_, by rw [digitsSum_shift, h.sum]⟩
  · intro d hd
    obtain ⟨x, hx, rfl⟩ := List.mem_map.mp hd
    exact h.odd x hx
  · intro d hd
    obtain ⟨x, hx, rfl⟩ := List.mem_map.mp hd
    exact h.small x hx
  · rw [List.pairwise_map]
    refine h.apart.imp fun hab => ?_
    dsimp only
    omega

theorem SignedDigits.exists {w : ℕ} (hw : 0 < w) (n : ℤ) : ∃ L, SignedDigits w n L := by
  induction hN : n.natAbs using Nat.strong_induction_on generalizing n with
  | _ N ih =>
    subst hN
    by_cases h0 : n = 0
    · subst h0
      exact ⟨[], by simp, by simp, List.Pairwise.nil, rfl⟩
    by_cases h2 : n % 2 = 0
    · obtain ⟨L, hL⟩ := ih (n / 2).natAbs (by omega) (n / 2) rfl
      have := hL.shift 1
      rw [pow_one, Int.mul_ediv_cancel' (Int.dvd_of_emod_eq_zero h2)] at this
      exact ⟨_, this⟩
    · -- the digit
      obtain ⟨d, k, hd, hk⟩ : ∃ d k : ℤ, |d| < 2 ^ w ∧ n = d + 2 ^ (w + 1) * k := by
        have hpos : (0 : ℤ) < 2 ^ w := by positivity
        have h1 := Int.emod_add_mul_ediv n (2 ^ (w + 1))
        have h3 := Int.emod_nonneg n (show (2 : ℤ) ^ (w + 1) ≠ 0 by positivity)
        have h4 := Int.emod_lt_of_pos n (show (0 : ℤ) < 2 ^ (w + 1) by positivity)
        have h5 : n % 2 ^ (w + 1) ≠ 2 ^ w := by
          intro h
          rw [h] at h1
          obtain ⟨v, rfl⟩ : ∃ v, w = v + 1 := ⟨w - 1, by omega⟩
          have : 2 * (2 ^ v + 2 ^ (v + 1) * (n / 2 ^ (v + 1 + 1))) = n := by
            conv_rhs => rw [← h1]
            ring
          omega
        rcases lt_or_gt_of_ne h5 with h6 | h6
        · exact ⟨_, _, by rw [abs_of_nonneg h3]; exact h6, h1.symm⟩
        · refine ⟨n % 2 ^ (w + 1) - 2 ^ (w + 1), n / 2 ^ (w + 1) + 1, ?_, by linarith⟩
          rw [abs_lt]
          have : (2 : ℤ) ^ (w + 1) = 2 * 2 ^ w := by ring
          constructor <;> linarith
      have hodd : d % 2 = 1 := by
        have : n = d + 2 * (2 ^ w * k) := by rw [hk]; ring
        omega
      have hlt : k.natAbs < n.natAbs := by
        have hpos : (2 : ℤ) ≤ 2 ^ w := by
          calc (2 : ℤ) = 2 ^ 1 := by norm_num
            _ ≤ 2 ^ w := pow_le_pow_right₀ (by norm_num) hw
        have h3 : (2 : ℤ) ^ (w + 1) = 2 * 2 ^ w := by ring
        rw [abs_lt] at hd
        rw [h3] at hk
        have h4 : |k| < |n| := by
          rcases lt_trichotomy k 0 with hn | hn | hn
          · have : n < k := by nlinarith
            rw [abs_of_neg hn, abs_of_neg (by linarith)]
            linarith
          · subst hn
            rw [abs_zero]
            exact abs_pos.mpr h0
          · have : k < n := by nlinarith
            rw [abs_of_pos hn, abs_of_pos (by linarith)]
            exact this
        rw [Int.abs_eq_natAbs, Int.abs_eq_natAbs] at h4
        exact_mod_cast h4
      obtain ⟨L, hL⟩ := ih k.natAbs hlt k rfl
      have hs := hL.shift (w + 1)
      refine ⟨(L.map fun d => (d.1 + (w + 1), d.2)) ++ [(0, d)], ?_, ?_, ?_, ?_⟩
      · intro x hx
        rcases List.mem_append.mp hx with hx | hx
        · exact hs.odd x hx
        · rw [List.mem_singleton.mp hx]
          exact hodd
      · intro x hx
        rcases List.mem_append.mp hx with hx | hx
        · exact hs.small x hx
        · rw [List.mem_singleton.mp hx]
          exact hd
      · rw [List.pairwise_append]
        refine ⟨hs.apart, List.pairwise_singleton _ _, fun a ha b hb => ?_⟩
        rw [List.mem_singleton.mp hb]
        obtain ⟨x, _, rfl⟩ := List.mem_map.mp ha
        dsimp only
        omega
      · rw [digitsSum_append, digitsSum_one, hs.sum, hk]
        ring

end Ed448
