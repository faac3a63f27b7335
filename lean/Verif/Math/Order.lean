import Verif.Math.Projective
import Verif.Math.Prime
import Verif.Field.BytesLemmas
import Mathlib.GroupTheory.OrderOfElement
import Mathlib.GroupTheory.Perm.Cycle.Type
import Mathlib.GroupTheory.Coset.Card
import Mathlib.GroupTheory.QuotientGroup.Basic

/-!
# The order of the group of Ed448

The base point has prime order `q`, and `4q` kills every point. The proof of the latter needs no point counting: two points with the
same y coordinate are equal or opposite, so there are at most `2p` points, and `4E` has at most `p/2 < 3q` elements.
-/

set_option exponentiation.threshold 1000

namespace Ed448

theorem q_def : q = 2 ^ 446 - 13818066809895115352007386748515426880336692474882178609894547503885 := by
  unfold q; rfl

theorem q_prime : Nat.Prime q := by rw [q_def]; exact prime_q

instance fact_q_prime : Fact (Nat.Prime q) := ⟨q_prime⟩

theorem q_lt : q < 2 ^ 446 := by rw [q_def]; decide +kernel

/-- `q` as a literal. -/
def qN : ℕ := 181709681073901722637330951972001133588410340171829515070372549795146003961539585716195755291692375963310293709091662304773755859649779

theorem qN_eq : qN = q := by rw [q_def]; decide +kernel

theorem q_smul_B : q • B = 0 := by
  rw [← qN_eq]
  refine (pIsZero_rep (pmul_rep pB_rep 446 qN (by decide +kernel))).mp ?_
  decide +kernel

theorem B_ne_zero : B ≠ 0 := by
  intro h
  have := (pIsZero_rep pB_rep).mpr h
  revert this
  decide +kernel

theorem order_B : addOrderOf B = q := addOrderOf_eq_prime q_smul_B B_ne_zero

theorem smul_B_inj {m n : ℕ} : m • B = n • B ↔ m % q = n % q := by
  rw [nsmul_eq_nsmul_iff_modEq, order_B]; rfl

theorem smul_B_mod (n : ℕ) : (n % q) • B = n • B := smul_B_inj.mpr (Nat.mod_mod _ _)

/-! ## Points and their y coordinate -/

/-- Points with the same y have the same x up to sign. -/
theorem eq_or_neg_of_y {A C : E} (h : A.y = C.y) : A = C ∨ A = -C := by
  have h1 := A.on
  have h2 := C.on
  have hne : 1 - edD * C.y ^ 2 ≠ 0 := by
    intro h0
    apply EdwardsCoeff.nonsquare (d := edD)
    by_cases hy : C.y = 0
    · rw [hy] at h0; simp at h0
    · refine ⟨1 / C.y, ?_⟩
      field_simp
      linear_combination -h0
  have h3 : A.x ^ 2 = C.x ^ 2 := by
    have : (A.x ^ 2 - C.x ^ 2) * (1 - edD * C.y ^ 2) = 0 := by
      rw [h] at h1
      linear_combination h1 - h2
    exact sub_eq_zero.mp ((mul_eq_zero.mp this).resolve_right hne)
  rcases sq_eq_sq_iff_eq_or_eq_neg.mp h3 with h4 | h4
  · left; ext <;> assumption
  · right; ext
    · exact h4
    · exact h

theorem p_odd : p % 2 = 1 := by rw [p_def]; decide +kernel

/-- Opposite elements of the field have different parities. -/
theorem parity_neg {a : F} (h : a ≠ 0) : (-a).val % 2 ≠ a.val % 2 := by
  have : NeZero a := ⟨h⟩
  rw [ZMod.val_neg_of_ne_zero]
  have h1 := ZMod.val_lt a
  have h2 := p_odd
  omega

/-- The y coordinate and the parity of x determine the point. -/
theorem eq_of_y_parity {A C : E} (h : A.y = C.y) (hx : A.x.val % 2 = C.x.val % 2) : A = C := by
  rcases eq_or_neg_of_y h with h1 | h1
  · exact h1
  · by_cases h0 : C.x = 0
    · ext
      · rw [h1, Edw.neg_x, h0, neg_zero]
      · exact h
    · exfalso
      rw [h1, Edw.neg_x] at hx
      exact parity_neg h0 hx

theorem p_lt : p < 2 ^ 448 := by rw [p_def]; decide +kernel

theorem leBytes_inj {k m n : ℕ} (hm : m < 256 ^ k) (hn : n < 256 ^ k) (h : leBytes k m = leBytes k n) : m = n := by
  rw [← Nat.mod_eq_of_lt hm, ← Nat.mod_eq_of_lt hn, ← leNat_leBytes k m, ← leNat_leBytes k n, h]

theorem encodePoint_bound (A : E) : A.y.val + 2 ^ 455 * (A.x.val % 2) < 256 ^ 57 := by
  have h1 := ZMod.val_lt A.y
  have h2 := p_lt
  have h3 : A.x.val % 2 < 2 := Nat.mod_lt _ (by norm_num)
  omega

/-- The encoding of RFC 8032 is injective. -/
theorem encodePoint_inj {A C : E} : encodePoint A = encodePoint C ↔ A = C := by
  constructor
  · intro h
    have h1 := leBytes_inj (encodePoint_bound A) (encodePoint_bound C) h
    have a1 := ZMod.val_lt A.y
    have a2 := ZMod.val_lt C.y
    have h2 := p_lt
    apply eq_of_y_parity
    · apply ZMod.val_injective; omega
    · omega
  · rintro rfl; rfl

/-! ## The number of points -/

theorem finite_E : Finite E := by
  apply Finite.of_injective (fun A : E => (A.y, A.x))
  intro A C h
  ext
  · exact congrArg Prod.snd h
  · exact congrArg Prod.fst h

instance : Finite E := finite_E

theorem card_E_le : Nat.card E ≤ p * 2 := by
  have h : Function.Injective (fun A : E => (A.y, (⟨A.x.val % 2, Nat.mod_lt _ (by norm_num)⟩ : Fin 2))) := by
    intro A C h
    apply eq_of_y_parity
    · exact congrArg Prod.fst h
    · exact congrArg Fin.val (congrArg Prod.snd h)
  have := Nat.card_le_card_of_injective _ h
  rwa [Nat.card_prod, Nat.card_zmod, Nat.card_fin] at this

/-- Multiplication by 4. -/
noncomputable def mul4 : E →+ E := nsmulAddMonoidHom 4

theorem mul4_apply (A : E) : mul4 A = 4 • A := rfl

/-- The points `(1, 0)` of order four. -/
noncomputable def T4 : E where
  x := 1
  y := 0
  on := by ring

/-- The point `(0, -1)` of order two. -/
noncomputable def T2 : E where
  x := 0
  y := -1
  on := by ring

theorem T4_double : T4 + T4 = T2 := by
  have hx := Edw.add_x_mul T4 T4
  have hy := Edw.add_y_mul T4 T4
  ext
  · simpa [T4, T2] using hx
  · simpa [T4, T2] using hy

theorem T2_double : T2 + T2 = 0 := by
  have hx := Edw.add_x_mul T2 T2
  have hy := Edw.add_y_mul T2 T2
  ext
  · simpa [T2] using hx
  · simpa [T2] using hy

theorem T2_ne_zero : T2 ≠ 0 := by
  intro h
  have := congrArg Edw.y h
  simp only [T2, Edw.zero_y] at this
  exact F_two_ne_zero (by linear_combination -this)

theorem four_T4 : 4 • T4 = 0 := by
  rw [Edw.four_eq, T4_double, T2_double]

theorem order_T4 : addOrderOf T4 = 4 := by
  have := addOrderOf_eq_prime_pow (p := 2) (n := 1) (x := T4) (by
    rw [pow_one, two_nsmul, T4_double]; exact T2_ne_zero) (by exact four_T4)
  simpa using this

/-- `(0, -1)` is not divisible by 4. -/
theorem T2_not_four (A : E) : 4 • A ≠ T2 := by
  intro h
  rw [Edw.four_eq] at h
  have h1 : ((A + A) + (A + A)).x = 0 := by rw [h]; rfl
  have h2 : ((A + A) + (A + A)).y = -1 := by rw [h]; rfl
  have hx := Edw.add_x_mul (A + A) (A + A)
  have hy := Edw.add_y_mul (A + A) (A + A)
  have on := (A + A).on
  rw [h1, zero_mul] at hx
  rw [h2] at hy
  have h3 : (2 : F) * ((A + A).x * (A + A).y) = 0 := by linear_combination -hx
  have h4 := (mul_eq_zero.mp h3).resolve_left F_two_ne_zero
  rcases mul_eq_zero.mp h4 with h5 | h5
  · rw [h5] at hy on
    have : (2 : F) = 0 := by linear_combination -hy - on
    exact F_two_ne_zero this
  · have hd := Edw.add_y_mul A A
    rw [h5, zero_mul] at hd
    exact Edw.phi_den_x A (by linear_combination hd)

theorem card_mul : Nat.card mul4.ker * Nat.card mul4.range = Nat.card E := by
  have h1 := AddSubgroup.card_eq_card_quotient_mul_card_addSubgroup mul4.ker
  have h2 := Nat.card_congr (QuotientAddGroup.quotientKerEquivRange mul4).toEquiv
  rw [h1, h2, mul_comm]

theorem four_dvd_ker : 4 ∣ Nat.card mul4.ker := by
  have hmem : T4 ∈ mul4.ker := four_T4
  have h := addOrderOf_dvd_natCard (⟨T4, hmem⟩ : mul4.ker)
  rwa [AddSubgroup.addOrderOf_mk, order_T4] at h

theorem B_mem_range : B ∈ mul4.range := by
  have hq : q % 4 = 3 := by rw [q_def]; decide +kernel
  refine ⟨((q + 1) / 4) • B, ?_⟩
  rw [mul4_apply, ← mul_nsmul', show 4 * ((q + 1) / 4) = q + 1 by omega, succ_nsmul, q_smul_B, zero_add]

theorem q_dvd_range : q ∣ Nat.card mul4.range := by
  have h := addOrderOf_dvd_natCard (⟨B, B_mem_range⟩ : mul4.range)
  rwa [AddSubgroup.addOrderOf_mk, order_B] at h

theorem range_odd : ¬ 2 ∣ Nat.card mul4.range := by
  intro h
  have : Fact (Nat.Prime 2) := ⟨Nat.prime_two⟩
  obtain ⟨⟨x, hm⟩, hx⟩ := exists_prime_addOrderOf_dvd_card' 2 h
  rw [AddSubgroup.addOrderOf_mk] at hx
  obtain ⟨c, hc⟩ := hm
  have h2 : 2 • x = 0 := by rw [← hx]; exact addOrderOf_nsmul_eq_zero x
  have hne : x ≠ 0 := by
    intro h0
    rw [h0, addOrderOf_zero] at hx
    exact absurd hx (by norm_num)
  rw [mul4_apply] at hc
  have h4 : 4 • x = 0 := by rw [show 4 = 2 * 2 from rfl, mul_nsmul, h2, nsmul_zero]
  have h5 : x = -x := by rw [two_nsmul] at h2; exact eq_neg_of_add_eq_zero_left h2
  have h6 : x.x = 0 := by
    have := congrArg Edw.x h5
    rw [Edw.neg_x] at this
    have h7 : (2 : F) * x.x = 0 := by linear_combination this
    exact (mul_eq_zero.mp h7).resolve_left F_two_ne_zero
  have on := x.on
  rw [h6] at on
  have h8 : (x.y - 1) * (x.y + 1) = 0 := by linear_combination on
  rcases mul_eq_zero.mp h8 with h9 | h9
  · apply hne; ext
    · exact h6
    · rw [Edw.zero_y]; linear_combination h9
  · apply T2_not_four c
    rw [hc]; ext
    · exact h6
    · show x.y = -1; linear_combination h9

theorem card_range : Nat.card mul4.range = q := by
  obtain ⟨k, hk⟩ := q_dvd_range
  obtain ⟨j, hj⟩ := four_dvd_ker
  have h1 := card_mul
  have h2 := card_E_le
  have h3 := range_odd
  have hpos : 0 < Nat.card mul4.ker := Nat.card_pos
  have hpos' : 0 < Nat.card mul4.range := Nat.card_pos
  have hq : p * 2 < 12 * q := by rw [p_def, q_def]; decide +kernel
  rw [hk, hj] at h1
  have hj1 : 1 ≤ j := by omega
  have hk1 : 1 ≤ k := by
    rcases Nat.eq_zero_or_pos k with h | h
    · rw [h, mul_zero] at hk; omega
    · exact h
  have hk3 : k < 3 := by
    by_contra hge
    push Not at hge
    have : 4 * 1 * (q * 3) ≤ 4 * j * (q * k) :=
      Nat.mul_le_mul (Nat.mul_le_mul_left _ hj1) (Nat.mul_le_mul_left _ hge)
    omega
  have hk2 : k ≠ 2 := by
    intro h
    apply h3
    rw [hk, h]
    exact Dvd.intro_left q rfl
  have : k = 1 := by omega
  rw [hk, this, mul_one]

/-- Every point is killed by `4q`. -/
theorem q_smul_four (A : E) : q • (4 • A) = 0 := by
  have h : (⟨4 • A, A, rfl⟩ : mul4.range) ∈ (⊤ : AddSubgroup mul4.range) := trivial
  have h1 := card_nsmul_eq_zero' (G := mul4.range) (x := ⟨4 • A, A, rfl⟩)
  rw [card_range] at h1
  exact congrArg Subtype.val h1

/-- `4E` is the subgroup generated by the base point. -/
theorem four_mem_B (A : E) : ∃ n : ℕ, n < q ∧ 4 • A = n • B := by
  have hc : Nat.card (AddSubgroup.zmultiples B) = q := by rw [Nat.card_zmultiples, order_B]
  have hle : AddSubgroup.zmultiples B ≤ mul4.range := by
    rw [AddSubgroup.zmultiples_le]; exact B_mem_range
  have heq := AddSubgroup.eq_of_le_of_card_ge hle (by rw [card_range, hc])
  have hm : 4 • A ∈ AddSubgroup.zmultiples B := by rw [heq]; exact ⟨A, rfl⟩
  rw [← mem_multiples_iff_mem_zmultiples] at hm
  obtain ⟨n, h⟩ := hm
  exact ⟨n % q, Nat.mod_lt _ q_prime.pos, by rw [smul_B_mod]; exact h.symm⟩

end Ed448
