import Verif.Curve.Rep
import Verif.Math.Projective

/-!
# The precomputed tables

Each table entry is checked, by evaluation in the kernel, against a multiple of the base point computed in projective coordinates.
-/

set_option exponentiation.threshold 1000

namespace Ed448

/-- All limbs are below 2^28. -/
def smallLimbs : List W32 → Bool
  | [] => true
  | x :: xs => Nat.blt x.toNat 268435456 && smallLimbs xs

theorem red_of_small {n : BN} (h : smallLimbs n.toList = true) : n.Red := by
  simp only [smallLimbs, BN.toList, Bool.and_eq_true, Nat.blt_eq] at h
  unfold BN.Red BN.Lt RB
  omega

/-- Computational check that Niels coordinates are those of ±φ of a point in projective coordinates. -/
def checkNiels (n : TwistedNiels) (P : PP) (s : Bool) : Bool :=
  let a := limbsNat n.a.toList
  let b := limbsNat n.b.toList
  let c := limbsNat n.c.toList
  let x := (b + (pN - a % pN)) % pN
  let y := (a + b) % pN
  let xx := P.1 * P.1 % pN
  let yy := P.2.1 * P.2.1 % pN
  let zz := P.2.2 * P.2.2 % pN
  let r := 2 * (P.1 * P.2.1) % pN
  let u := (xx + yy) % pN
  smallLimbs n.a.toList && smallLimbs n.b.toList && smallLimbs n.c.toList &&
  Nat.beq (x * (xx + (pN - yy)) % pN) (cond s ((pN - r) % pN) r) &&
  Nat.beq (y * (2 * zz + (pN - u)) % pN) (cond s ((pN - u) % pN) u) &&
  Nat.beq ((c + 39082 * (x * y)) % pN) 0

theorem cast_eq_of_beq {a b : ℕ} (h : Nat.beq (a % pN) (b % pN) = true) : (a : F) = (b : F) := by
  have := Nat.eq_of_beq_eq_true h
  rw [← cast_mod_pN a, this, cast_mod_pN]

theorem niels_alg {K : Type} [Field K] {x y X Y Z X' Y' e a b : K} (hz : Z ≠ 0) (hx : x * Z = X) (hy : y * Z = Y)
    (n1 : x ^ 2 - y ^ 2 ≠ 0) (n2 : 2 - x ^ 2 - y ^ 2 ≠ 0) (hX : X' * (x ^ 2 - y ^ 2) = 2 * (x * y))
    (hY : Y' * (2 - x ^ 2 - y ^ 2) = x ^ 2 + y ^ 2)
    (h1 : (b - a) * (X * X - Y * Y) = e * (2 * (X * Y))) (h2 : (a + b) * (2 * (Z * Z) - (X * X + Y * Y)) = e * (X * X + Y * Y)) :
    b - a = e * X' ∧ a + b = e * Y' := by
  subst hx hy
  constructor
  · apply mul_right_cancel₀ (mul_ne_zero n1 (pow_ne_zero 2 hz))
    linear_combination h1 - e * Z ^ 2 * hX
  · apply mul_right_cancel₀ (mul_ne_zero n2 (pow_ne_zero 2 hz))
    linear_combination h2 - e * Z ^ 2 * hY

theorem checkNiels_rep {n : TwistedNiels} {P : PP} {A : E} {s : Bool} (hP : PRep P A) (h : checkNiels n P s = true) : NRep n A := by
  obtain ⟨hZ, hX, hY⟩ := hP
  simp only [checkNiels, Bool.and_eq_true] at h
  obtain ⟨⟨⟨⟨⟨ha, hb⟩, hc⟩, h1⟩, h2⟩, h3⟩ := h
  rw [limbsNat_toList, limbsNat_toList] at h1 h2 h3
  rw [limbsNat_toList] at h3
  refine ⟨⟨red_of_small ha, red_of_small hb, red_of_small hc⟩, ?_⟩
  have e1 : n.a.toF = (n.a.val : F) := rfl
  have e2 : n.b.toF = (n.b.val : F) := rfl
  have e3 : n.c.toF = (n.c.val : F) := rfl
  obtain ⟨e, he, he1⟩ : ∃ e : F, e = (if s then -1 else 1) ∧ e * e = 1 := ⟨_, rfl, by cases s <;> simp⟩
  have f1 := congrArg (Nat.cast (R := F)) (Nat.eq_of_beq_eq_true h1)
  have f2 := congrArg (Nat.cast (R := F)) (Nat.eq_of_beq_eq_true h2)
  have f3 := congrArg (Nat.cast (R := F)) (Nat.eq_of_beq_eq_true h3)
  have r1 : ∀ r : ℕ, ((cond s ((pN - r % pN) % pN) (r % pN) : ℕ) : F) = e * (r : F) := by
    intro r
    rw [he]
    cases s
    · simp only [cond_false, cast_mod_pN]; simp
    · simp only [cond_true, cast_mod_pN, cast_sub_mod]; simp
  rw [r1] at f1 f2
  simp only [cast_mod_pN, cast_sub_mod, Nat.cast_add, Nat.cast_mul, Nat.cast_ofNat, Nat.cast_zero] at f1 f2 f3
  rw [← e1, ← e2] at f1 f2 f3
  rw [← e3] at f3
  obtain ⟨g1, g2⟩ := niels_alg (a := n.a.toF) (b := n.b.toF) (e := e) hZ hX hY A.phi_den_x A.phi_den_y A.phiX_mul A.phiY_mul
    (by linear_combination f1) (by linear_combination f2)
  refine ⟨e, e, e_ne_zero he1, he1, ?_, ?_, ?_, he1.symm⟩
  · linear_combination g2 - g1
  · linear_combination g2 + g1
  · have hd : edD - 1 = -39082 := by rw [edD]; norm_num
    rw [hd]
    have g3 : (n.b.toF - n.a.toF) * (n.a.toF + n.b.toF) = A.phiX * A.phiY := by
      rw [g1, g2]; linear_combination A.phiX * A.phiY * he1
    linear_combination f3 - 39082 * g3 + 39082 * A.phiX * A.phiY * he1

/-! ## The wNAF table -/

/-- Check entries against the odd multiples `P, P + D, P + 2D, ...`. -/
def checkOdd (D : PP) : PP → List TwistedNiels → Bool
  | _, [] => true
  | P, n :: ns => checkNiels n P true && checkOdd D (padd P D) ns

theorem checkOdd_rep {D : PP} {C : E} (hD : PRep D C) : ∀ (l : List TwistedNiels) {P : PP} {A : E}, PRep P A →
    checkOdd D P l = true → ∀ k (h : k < l.length), NRep l[k] (A + k • C)
  | [], _, _, _, _, k, h => absurd h (by simp)
  | n :: ns, P, A, hP, hc, k, h => by
    simp only [checkOdd, Bool.and_eq_true] at hc
    cases k with
    | zero => rw [zero_nsmul, add_zero]; exact checkNiels_rep hP hc.1
    | succ k =>
      have := checkOdd_rep hD ns (padd_rep hP hD) hc.2 k (by simpa using h)
      rw [succ_nsmul', ← add_assoc]
      exact this

theorem wnaf_table_length : DECAF_WNAF_TABLE.length = 32 := rfl

/-- Entry `k` of the fixed table is `(2k+1)` times the base point. -/
theorem wnaf_table_rep (k : ℕ) (h : k < DECAF_WNAF_TABLE.length) : NRep DECAF_WNAF_TABLE[k] ((2 * k + 1) • B) := by
  have := checkOdd_rep (padd_rep pB_rep pB_rep) DECAF_WNAF_TABLE pB_rep (by decide +kernel) k h
  rw [← two_nsmul, ← mul_nsmul'] at this
  rw [add_nsmul, one_nsmul, add_comm, mul_comm 2 k]
  exact this

/-! ## The comb table -/

/-- Doubling 18 times. -/
def pdbl : ℕ → PP → PP
  | 0, P => P
  | k + 1, P => pdbl k (padd P P)

theorem pdbl_rep : ∀ (k : ℕ) {P : PP} {A : E}, PRep P A → PRep (pdbl k P) (2 ^ k • A)
  | 0, P, A, h => by rw [pow_zero, one_nsmul]; exact h
  | k + 1, P, A, h => by
    have := pdbl_rep k (padd_rep h h)
    rw [← two_nsmul, ← mul_nsmul', ← pow_succ] at this
    exact this

/-- `P` or `-P`. -/
def psign (b : Bool) (P : PP) : PP := cond b P (pneg P)

/-- `C` or `-C`. -/
noncomputable def esign (b : Bool) (C : E) : E := if b then C else -C

theorem psign_rep (b : Bool) {P : PP} {A : E} (h : PRep P A) : PRep (psign b P) (esign b A) := by
  cases b
  · exact pneg_rep h
  · exact h

/-- The signed sum of one comb: `P4 + Σ ± Pk`, `+` where bit `k` of `t` is set. -/
def pcomb (P0 P1 P2 P3 P4 : PP) (t : ℕ) : PP :=
  padd (padd (padd (padd P4 (psign (t.testBit 3) P3)) (psign (t.testBit 2) P2)) (psign (t.testBit 1) P1)) (psign (t.testBit 0) P0)

/-- The same for points. -/
noncomputable def ecomb (C : ℕ → E) (t : ℕ) : E :=
  C 4 + esign (t.testBit 3) (C 3) + esign (t.testBit 2) (C 2) + esign (t.testBit 1) (C 1) + esign (t.testBit 0) (C 0)

/-- Check the 16 entries of one comb from entry `t` on. -/
def checkComb (s : Bool) (P0 P1 P2 P3 P4 : PP) : ℕ → List TwistedNiels → Bool
  | _, [] => true
  | t, n :: ns => checkNiels n (pcomb P0 P1 P2 P3 P4 t) s && checkComb s P0 P1 P2 P3 P4 (t + 1) ns

theorem checkComb_rep {s : Bool} {P0 P1 P2 P3 P4 : PP} {C : ℕ → E} (h0 : PRep P0 (C 0)) (h1 : PRep P1 (C 1)) (h2 : PRep P2 (C 2))
    (h3 : PRep P3 (C 3)) (h4 : PRep P4 (C 4)) : ∀ (l : List TwistedNiels) (t : ℕ), checkComb s P0 P1 P2 P3 P4 t l = true →
    ∀ k (h : k < l.length), NRep l[k] (ecomb C (t + k))
  | [], _, _, k, h => absurd h (by simp)
  | n :: ns, t, hc, k, h => by
    simp only [checkComb, Bool.and_eq_true] at hc
    cases k with
    | zero =>
      exact checkNiels_rep (padd_rep (padd_rep (padd_rep (padd_rep h4 (psign_rep _ h3)) (psign_rep _ h2)) (psign_rep _ h1))
        (psign_rep _ h0)) hc.1
    | succ k =>
      have := checkComb_rep h0 h1 h2 h3 h4 ns (t + 1) hc.2 k (by simpa using h)
      rw [show t + (k + 1) = t + 1 + k by ring]
      exact this

/-- Check all combs, 16 entries each; `P` is the point of the lowest tooth of the next comb. -/
def checkCombs : List Bool → PP → List TwistedNiels → Bool
  | [], _, _ => true
  | s :: ss, P0, l =>
    let P1 := pdbl 18 P0
    let P2 := pdbl 18 P1
    let P3 := pdbl 18 P2
    let P4 := pdbl 18 P3
    checkComb s P0 P1 P2 P3 P4 0 (l.take 16) && checkCombs ss (pdbl 18 P4) (l.drop 16)

theorem checkCombs_rep : ∀ (ss : List Bool) {P : PP} {A : E} (l : List TwistedNiels), PRep P A → checkCombs ss P l = true →
    ∀ j t (_ : j < ss.length) (_ : t < 16) (h : 16 * j + t < l.length),
      NRep l[16 * j + t] (ecomb (fun k => 2 ^ (18 * (5 * j + k)) • A) t)
  | [], _, _, _, _, _, j, _, h, _, _ => absurd h (by simp)
  | s :: ss, P0, A, l, hP, hc, j, t, hj, ht, h => by
    simp only [checkCombs, Bool.and_eq_true] at hc
    have step : ∀ {Q : PP} {k : ℕ}, PRep Q (2 ^ (18 * k) • A) → PRep (pdbl 18 Q) (2 ^ (18 * (k + 1)) • A) := by
      intro Q k hQ
      have := pdbl_rep 18 hQ
      rw [← mul_nsmul', ← pow_add, show 18 + 18 * k = 18 * (k + 1) by ring] at this
      exact this
    have p0 : PRep P0 (2 ^ (18 * 0) • A) := by rw [mul_zero, pow_zero, one_nsmul]; exact hP
    have p1 := step p0
    have p2 := step p1
    have p3 := step p2
    have p4 := step p3
    have p5 := step p4
    cases j with
    | zero =>
      have := checkComb_rep (C := fun k => 2 ^ (18 * k) • A) p0 p1 p2 p3 p4 (l.take 16) 0 hc.1 t (by simp; omega)
      simp only [List.getElem_take] at this
      simpa using this
    | succ j =>
      have := checkCombs_rep ss (l.drop 16) p5 hc.2 j t (by simpa using hj) ht (by simp; omega)
      simp only [List.getElem_drop, ← mul_nsmul', ← pow_add] at this
      simp only [show 16 * (j + 1) + t = 16 + (16 * j + t) by ring,
        show ∀ k, 18 * (5 * (j + 1) + k) = 18 * (5 * j + k) + 18 * (0 + 1 + 1 + 1 + 1 + 1) by intro k; ring]
      exact this

theorem comb_table_length : DECAF_PRECOMP_TABLE.length = 80 := rfl

/-- Entry `16 j + t` of the comb table is the signed sum of comb `j` with pattern `t`. -/
theorem comb_table_rep (j t : ℕ) (hj : j < 5) (ht : t < 16) (h : 16 * j + t < DECAF_PRECOMP_TABLE.length) :
    NRep DECAF_PRECOMP_TABLE[16 * j + t] (ecomb (fun k => 2 ^ (18 * (5 * j + k)) • B) t) :=
  checkCombs_rep [true, false, false, false, false] DECAF_PRECOMP_TABLE pB_rep (by decide +kernel) j t hj ht h

end Ed448
