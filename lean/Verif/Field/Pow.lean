import Verif.Field.StrongReduce

/-!
# The addition chain for the power `(p - 3) / 4`
-/

namespace Ed448

theorem mul_pow_spec {X : F} {f g : BN} {a b : ℕ} (c : ℕ) (hf : f.toF = X ^ a ∧ f.Red)
    (hg : g.toF = X ^ b ∧ g.Red) (h : a + b = c) : (mul f g).toF = X ^ c ∧ (mul f g).Red := by
  obtain ⟨h1, h2⟩ := mul_spec hf.2.mb hg.2.mb
  exact ⟨by rw [h1, hf.1, hg.1, ← pow_add, h], h2⟩

theorem square_pow_spec {X : F} {f : BN} {a : ℕ} (c : ℕ) (hf : f.toF = X ^ a ∧ f.Red)
    (h : a * 2 = c) : (square f).toF = X ^ c ∧ (square f).Red := by
  obtain ⟨h1, h2⟩ := square_spec hf.2.mb
  exact ⟨by rw [h1, hf.1, ← pow_add, ← h, mul_two], h2⟩

theorem squarePairs_spec : ∀ (k : ℕ) {X : F} {f : BN} {a : ℕ}, f.toF = X ^ a ∧ f.Red →
    (squarePairs k f).toF = X ^ (a * 2 ^ (2 * k)) ∧ (squarePairs k f).Red
  | 0, X, f, a, hf => by simpa [squarePairs] using hf
  | k + 1, X, f, a, hf => by
    have h := squarePairs_spec k (square_pow_spec _ (square_pow_spec _ hf rfl) rfl)
    refine ⟨?_, h.2⟩
    rw [squarePairs, h.1]
    congr 1
    rw [show 2 * (k + 1) = 2 * k + 2 by ring, pow_add]
    ring

theorem square_n_spec {X : F} {f : BN} {a : ℕ} (n c : ℕ) (hf : f.toF = X ^ a ∧ f.Red) (hn : 0 < n)
    (h : a * 2 ^ n = c) : (square_n f n).toF = X ^ c ∧ (square_n f n).Red := by
  unfold square_n
  split
  · next ho =>
    have := squarePairs_spec ((n - 1) / 2) (square_pow_spec _ hf rfl)
    refine ⟨?_, this.2⟩
    rw [this.1, ← h, mul_assoc, ← pow_succ', show 2 * ((n - 1) / 2) + 1 = n by omega]
  · next ho =>
    have := squarePairs_spec ((n - 2) / 2) (square_pow_spec _ (square_pow_spec _ hf rfl) rfl)
    refine ⟨?_, this.2⟩
    rw [this.1, ← h, mul_assoc, mul_assoc, ← pow_succ', ← pow_succ',
      show 2 * ((n - 2) / 2) + 1 + 1 = n by omega]

set_option exponentiation.threshold 1000 in
theorem p_eq4 : p = 4 * (2 ^ 446 - 2 ^ 222 - 1) + 3 := by
  unfold p; norm_num

set_option exponentiation.threshold 1000 in
theorem isr_spec' {x : BN} (hx : x.Red) :
    (isr x).toF = x.toF ^ (2 ^ 446 - 2 ^ 222 - 1) ∧ (isr x).Red := by
  obtain ⟨X, hX⟩ : ∃ X, X = x.toF := ⟨_, rfl⟩
  have h0 : x.toF = X ^ 1 ∧ x.Red := ⟨by rw [pow_one, hX], hx⟩
  rw [← hX]
  have h1 := square_pow_spec 2 h0 (by norm_num)
  have h2 := mul_pow_spec 3 h0 h1 (by norm_num)
  have h3 := square_pow_spec 6 h2 (by norm_num)
  have h4 := mul_pow_spec (2 ^ 3 - 1) h0 h3 (by norm_num)
  have h5 := square_n_spec 3 (2 ^ 6 - 2 ^ 3) h4 (by norm_num) (by norm_num)
  have h6 := mul_pow_spec (2 ^ 6 - 1) h4 h5 (by norm_num)
  have h7 := square_n_spec 3 (2 ^ 9 - 2 ^ 3) h6 (by norm_num) (by norm_num)
  have h8 := mul_pow_spec (2 ^ 9 - 1) h4 h7 (by norm_num)
  have h9 := square_n_spec 9 (2 ^ 18 - 2 ^ 9) h8 (by norm_num) (by norm_num)
  have h10 := mul_pow_spec (2 ^ 18 - 1) h8 h9 (by norm_num)
  have h11 := square_pow_spec (2 ^ 19 - 2) h10 (by norm_num)
  have h12 := mul_pow_spec (2 ^ 19 - 1) h0 h11 (by norm_num)
  have h13 := square_n_spec 18 (2 ^ 37 - 2 ^ 18) h12 (by norm_num) (by norm_num)
  have h14 := mul_pow_spec (2 ^ 37 - 1) h10 h13 (by norm_num)
  have h15 := square_n_spec 37 (2 ^ 74 - 2 ^ 37) h14 (by norm_num) (by norm_num)
  have h16 := mul_pow_spec (2 ^ 74 - 1) h14 h15 (by norm_num)
  have h17 := square_n_spec 37 (2 ^ 111 - 2 ^ 37) h16 (by norm_num) (by norm_num)
  have h18 := mul_pow_spec (2 ^ 111 - 1) h14 h17 (by norm_num)
  have h19 := square_n_spec 111 (2 ^ 222 - 2 ^ 111) h18 (by norm_num) (by norm_num)
  have h20 := mul_pow_spec (2 ^ 222 - 1) h18 h19 (by norm_num)
  have h21 := square_pow_spec (2 ^ 223 - 2) h20 (by norm_num)
  have h22 := mul_pow_spec (2 ^ 223 - 1) h0 h21 (by norm_num)
  have h23 := square_n_spec 223 (2 ^ 446 - 2 ^ 223) h22 (by norm_num) (by norm_num)
  exact mul_pow_spec (2 ^ 446 - 2 ^ 222 - 1) h20 h23 (by norm_num)

/-- `isr` raises to the power `(p - 3) / 4`. -/
theorem isr_spec {x : BN} (hx : x.Red) : (isr x).toF = x.toF ^ ((p - 3) / 4) ∧ (isr x).Red := by
  have h : (p - 3) / 4 = 2 ^ 446 - 2 ^ 222 - 1 := by
    rw [p_eq4, Nat.add_sub_cancel, Nat.mul_div_cancel_left _ (by norm_num)]
  rw [h]
  exact isr_spec' hx

/-- `invert` raises to the power `p - 2`. -/
theorem invert_spec {x : BN} (hx : x.Red) : (invert x).toF = x.toF ^ (p - 2) ∧ (invert x).Red := by
  have h0 : x.toF = x.toF ^ 1 ∧ x.Red := ⟨(pow_one _).symm, hx⟩
  have h1 := square_spec hx.mb
  have h2 := isr_spec h1.2
  have h3 := square_spec h2.2.mb
  have h4 := mul_spec h3.2.mb hx.mb
  refine ⟨?_, h4.2⟩
  have hp := p_eq4
  rw [show invert x = mul (square (isr (square x))) x from rfl, h4.1, h3.1, h2.1, h1.1, ← pow_two,
    ← pow_two, ← pow_mul, ← pow_mul, ← pow_succ]
  congr 1
  generalize 2 ^ 446 - 2 ^ 222 - 1 = e at hp
  omega

end Ed448
