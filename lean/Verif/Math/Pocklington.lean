import Mathlib.FieldTheory.Finite.Basic
import Mathlib.Data.Nat.Prime.Basic
import Mathlib.Data.ZMod.Basic
import Mathlib.Tactic.Ring
import Mathlib.Tactic.Linarith

/-!
# Pocklington's primality criterion, in a form the kernel can evaluate
-/

namespace Ed448

/-- `a ^ e % m` by repeated squaring, for `e < 2 ^ k`. -/
def powMod (a m : ℕ) : ℕ → ℕ → ℕ
  | 0, _ => 1 % m
  | k + 1, e =>
    let t := powMod a m k (e / 2)
    cond (Nat.beq (e % 2) 0) (t * t % m) (t * t % m * a % m)

theorem powMod_eq (a m : ℕ) : ∀ k e, e < 2 ^ k → powMod a m k e = a ^ e % m
  | 0, e, h => by
    have : e = 0 := by simpa using h
    simp [powMod, this]
  | k + 1, e, h => by
    have ih := powMod_eq a m k (e / 2) (by rw [pow_succ] at h; omega)
    simp only [powMod, ih]
    rcases Nat.mod_two_eq_zero_or_one e with h2 | h2
    · rw [h2]
      have he : e = e / 2 + e / 2 := by omega
      conv_rhs => rw [he, pow_add]
      simp [Nat.mul_mod]
    · rw [h2]
      have he : e = e / 2 + e / 2 + 1 := by omega
      conv_rhs => rw [he, pow_succ, pow_add]
      rw [show Nat.beq 1 0 = false from rfl, cond_false]
      simp [Nat.mul_mod]

theorem list_prod_dvd_of_primes : ∀ (l : List ℕ) (n : ℕ), (∀ f ∈ l, f.Prime) → l.Nodup → (∀ f ∈ l, f ∣ n) → l.prod ∣ n
  | [], _, _, _, _ => by simp
  | f :: l, n, hp, hn, hd => by
    rw [List.prod_cons]
    rw [List.nodup_cons] at hn
    refine Nat.Coprime.mul_dvd_of_dvd_of_dvd ?_ (hd f (by simp))
      (list_prod_dvd_of_primes l n (fun g hg => hp g (by simp [hg])) hn.2 (fun g hg => hd g (by simp [hg])))
    rw [Nat.Prime.coprime_iff_not_dvd (hp f (by simp))]
    intro hdv
    obtain ⟨g, hg, hfg⟩ := (Nat.Prime.prime (hp f (by simp))).dvd_prod_iff.mp hdv
    rw [(Nat.prime_dvd_prime_iff_eq (hp f (by simp)) (hp g (by simp [hg]))).mp hfg] at hn
    exact hn.1 hg

/-- The power conditions of a certificate: `k` bounds the bit length, `l` are primes dividing `N - 1`, `a` is the base. -/
def pockPow (N k a : ℕ) (l : List ℕ) : Bool :=
  Nat.ble 2 N && Nat.ble N (2 ^ k) && Nat.beq (powMod a N k (N - 1)) 1 &&
  l.all fun f => Nat.beq ((N - 1) % f) 0 && Nat.beq (Nat.gcd (powMod a N k ((N - 1) / f) + (N - 1)) N) 1

/-- Every prime divisor of `N` is 1 modulo the product of the list. -/
theorem pock_dvd {N k a : ℕ} {l : List ℕ} (hp : ∀ f ∈ l, f.Prime) (hn : l.Nodup)
    (h : pockPow N k a l = true) {r : ℕ} (hr : r.Prime) (hrd : r ∣ N) : l.prod ∣ r - 1 := by
  simp only [pockPow, Bool.and_eq_true, Nat.ble_eq, Nat.beq_eq, List.all_eq_true] at h
  obtain ⟨⟨⟨h2, hk⟩, h1⟩, hf⟩ := h
  have : Fact r.Prime := ⟨hr⟩
  have key : ∀ e x : ℕ, a ^ e % N = x → (a : ZMod r) ^ e = (x : ZMod r) := by
    intro e x hx
    rw [← Nat.cast_pow, ZMod.natCast_eq_natCast_iff, ← hx]
    exact ((Nat.mod_modEq (a ^ e) N).of_dvd hrd).symm
  have hone : (a : ZMod r) ^ (N - 1) = 1 := by
    rw [powMod_eq a N k _ (by omega)] at h1
    simpa using key _ _ h1
  have hane : (a : ZMod r) ≠ 0 := by
    intro h0
    rw [h0, zero_pow (by omega)] at hone
    exact zero_ne_one hone
  · apply list_prod_dvd_of_primes l _ hp hn
    intro f hfl
    obtain ⟨hfd, hg⟩ := hf f hfl
    have hfN : f ∣ N - 1 := Nat.dvd_of_mod_eq_zero hfd
    have hne : (a : ZMod r) ^ ((N - 1) / f) ≠ 1 := by
      intro heq
      rw [powMod_eq a N k _ (lt_of_le_of_lt (Nat.div_le_self _ _) (by omega))] at hg
      have hx := key ((N - 1) / f) _ rfl
      rw [heq] at hx
      have : (r : ℕ) ∣ a ^ ((N - 1) / f) % N + (N - 1) := by
        rw [← ZMod.natCast_eq_zero_iff, Nat.cast_add, ← hx, Nat.cast_sub (by omega),
          (ZMod.natCast_eq_zero_iff N r).mpr hrd]
        simp
      have hdv := Nat.dvd_gcd this hrd
      rw [hg] at hdv
      exact hr.one_lt.ne' (Nat.dvd_one.mp hdv)
    have ho : orderOf (a : ZMod r) ∣ N - 1 := orderOf_dvd_of_pow_eq_one hone
    have hfo : f ∣ orderOf (a : ZMod r) := by
      by_contra hnd
      have hc : Nat.Coprime f (orderOf (a : ZMod r)) := (Nat.Prime.coprime_iff_not_dvd (hp f hfl)).mpr hnd
      obtain ⟨m, hm⟩ := hfN
      apply hne
      rw [hm, Nat.mul_div_cancel_left _ (hp f hfl).pos]
      rw [hm] at ho
      exact orderOf_dvd_iff_pow_eq_one.mp (hc.symm.dvd_of_dvd_mul_left ho)
    exact hfo.trans (orderOf_dvd_of_pow_eq_one (ZMod.pow_card_sub_one_eq_one hane))

/-- Square root version. -/
theorem pocklington {N k a : ℕ} {l : List ℕ} (hp : ∀ f ∈ l, f.Prime) (hn : l.Nodup)
    (h : pockPow N k a l = true) (hsq : N < l.prod * l.prod) : N.Prime := by
  have h2 : 2 ≤ N := by
    simp only [pockPow, Bool.and_eq_true, Nat.ble_eq] at h
    exact h.1.1.1
  by_contra hN
  have hN1 : N ≠ 1 := by omega
  have hr := Nat.minFac_prime hN1
  have hrs := Nat.minFac_sq_le_self (by omega) hN
  have hdv := pock_dvd hp hn h hr (Nat.minFac_dvd N)
  generalize N.minFac = r at *
  have hle : l.prod ≤ r - 1 := Nat.le_of_dvd (by have := hr.two_le; omega) hdv
  have : l.prod * l.prod ≤ r * r := Nat.mul_le_mul (by omega) (by omega)
  rw [pow_two] at hrs
  omega

theorem add_le_mul_add_one {x y : ℕ} (hx : 1 ≤ x) (hy : 1 ≤ y) : x + y ≤ x * y + 1 := by
  obtain ⟨a, rfl⟩ := Nat.exists_eq_add_of_le hx
  obtain ⟨b, rfl⟩ := Nat.exists_eq_add_of_le hy
  have : (1 + a) * (1 + b) = 1 + a + b + a * b := by ring
  omega

/-- Cube root version. -/
theorem pocklington3 {N k a : ℕ} {l : List ℕ} (hp : ∀ f ∈ l, f.Prime) (hn : l.Nodup)
    (h : pockPow N k a l = true) (hcu : N < l.prod * l.prod * l.prod)
    (hc : (N - 1) / l.prod / l.prod + 1 < (N - 1) / l.prod % l.prod) : N.Prime := by
  have h2 : 2 ≤ N ∧ ∀ f ∈ l, f ∣ N - 1 := by
    simp only [pockPow, Bool.and_eq_true, Nat.ble_eq, Nat.beq_eq, List.all_eq_true] at h
    exact ⟨h.1.1.1, fun f hf => Nat.dvd_of_mod_eq_zero (h.2 f hf).1⟩
  obtain ⟨h2, hfd⟩ := h2
  have hFd := list_prod_dvd_of_primes l (N - 1) hp hn hfd
  by_contra hN
  have hN1 : N ≠ 1 := by omega
  have hr := Nat.minFac_prime hN1
  have hrs := Nat.minFac_sq_le_self (by omega) hN
  have hrd := Nat.minFac_dvd N
  have hdv := pock_dvd hp hn h hr hrd
  generalize N.minFac = r at *
  generalize l.prod = F at *
  obtain ⟨s, rfl⟩ := hrd
  obtain ⟨R, hR⟩ := hFd
  obtain ⟨x, hx⟩ := hdv
  have hr2 := hr.two_le
  have hF : 0 < F := by
    rcases Nat.eq_zero_or_pos F with h0 | h0
    · rw [h0] at hcu; omega
    · exact h0
  have hx0 : 1 ≤ x := by
    rcases Nat.eq_zero_or_pos x with h0 | h0
    · rw [h0] at hx; omega
    · exact h0
  have hrx : r = F * x + 1 := by omega
  -- the cofactor is 1 modulo F too
  have hs : F ∣ s - 1 := by
    have e : s - 1 = r * s - 1 - F * x * s := by
      rw [hrx, Nat.add_mul]; omega
    rw [e, hR, Nat.mul_assoc]
    exact Nat.dvd_sub (Dvd.intro _ rfl) (Dvd.intro _ rfl)
  obtain ⟨y, hy⟩ := hs
  have hsr : r ≤ s := by
    rw [pow_two] at hrs
    exact Nat.le_of_mul_le_mul_left hrs (by omega)
  have hsy : s = F * y + 1 := by omega
  have hy0 : 1 ≤ y := by
    rcases Nat.eq_zero_or_pos y with h0 | h0
    · rw [h0] at hy; omega
    · exact h0
  have hRe : R = F * (x * y) + (x + y) := by
    apply Nat.eq_of_mul_eq_mul_left hF
    rw [← hR, hrx, hsy]
    have : (F * x + 1) * (F * y + 1) = F * (F * (x * y) + (x + y)) + 1 := by ring
    omega
  rw [hR, Nat.mul_div_cancel_left _ hF] at hc
  have hRF : R < F * F := by
    have : F * R < F * F * F := by omega
    rw [Nat.mul_assoc] at this
    exact Nat.lt_of_mul_lt_mul_left this
  have hxyF : x * y < F := by
    have : F * (x * y) < F * F := by omega
    exact Nat.lt_of_mul_lt_mul_left this
  have hsum := add_le_mul_add_one hx0 hy0
  rcases Nat.lt_or_ge (x + y) F with hlt | hge
  · rw [hRe, Nat.mul_add_div hF, Nat.div_eq_of_lt hlt, Nat.mul_add_mod, Nat.mod_eq_of_lt hlt] at hc
    omega
  · have hxy : x * y = F - 1 := by omega
    rw [hRe, hxy] at hRF
    have : F * (F - 1) + F = F * F := by
      rw [← Nat.mul_succ]; congr 1; omega
    omega

end Ed448
