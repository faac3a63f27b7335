import Verif.Cost.Count

/-!
# The cost of verification
-/

set_option exponentiation.threshold 1000

namespace Ed448.Cost

theorem addVar_exact (l : List PNiels) (i : ℤ) (ev : SmvtControl) (cp : Bool) (out : Pt) :
    Exact (addVar l i ev cp out) (cond (i != 0 && !cp) 7 8) [] := by
  rw [addVar]
  split
  · exact (Exact.free _).then (fun _ => add_proj_exact _ _ _) (by omega) rfl
  · exact (Exact.free _).then (fun _ => sub_proj_exact _ _ _) (by omega) rfl

theorem addPre_exact (i : ℤ) (ep : SmvtControl) (out : Pt) : Exact (addPre i ep out) (cond (i != 0) 6 7) [] := by
  rw [addPre]
  split
  · exact (Exact.free _).then (fun _ => add_niels_exact _ _ _) (by omega) rfl
  · exact (Exact.free _).then (fun _ => sub_niels_exact _ _ _) (by omega) rfl

theorem free_ok_bind {α β : Type} (a : α) (f : α → Cost β) : (free (.ok a) >>= f) = f a := by
  rw [bind_def, andThen, free]
  simp only [Nat.zero_add, List.nil_append]

/-- One multiplication by 2 with the additions. -/
theorem step_cost (k : ℕ) (cv cp : Bool) : cond ((k : ℤ) != 0 && !(cv || cp)) 7 8 + (cond cv (cond ((k : ℤ) != 0 && !cp) 7 8) 0 +
    cond cp (cond ((k : ℤ) != 0) 6 7) 0) = 7 + 8 * cv.toNat + 7 * cp.toNat + if k = 0 then 1 else 0 := by
  by_cases hk : k = 0
  · subst hk
    cases cv <;> cases cp <;> rfl
  · rw [show ((k : ℤ) != 0) = true from bne_iff_ne.mpr (by omega), if_neg hk]
    cases cv <;> cases cp <;> rfl

theorem length_next {α : Type} {control R R' rest : List α} {m : α} {c : ℕ} {b : Bool} (h : control.drop c = R ++ m :: rest)
    (h' : control.drop (cond b (c + 1) c) = R' ++ m :: rest) : R.length = R'.length + b.toNat := by
  have h1 := congrArg List.length h
  have h2 := congrArg List.length h'
  rw [List.length_drop, List.length_append, List.length_cons] at h1 h2
  cases b <;> simp only [cond, Bool.toNat_true, Bool.toNat_false] at * <;> omega

/-- The cost of the loop: 7 for every doubling, 8 for every digit of the first scalar, 7 for every digit of the second, 1 at the end. -/
theorem dsLoop_exact (control_var control_pre rv rp : List SmvtControl) (l : List PNiels) :
    ∀ (k contv contp : ℕ) (out : Pt) (Rv Rp : List SmvtControl),
      control_var.drop contv = Rv ++ ⟨-1, 0⟩ :: rv → control_pre.drop contp = Rp ++ ⟨-1, 0⟩ :: rp →
      GoodDigits 3 Rv → GoodDigits 5 Rp → (∀ x ∈ Rv, x.power < (k : ℤ)) → (∀ x ∈ Rp, x.power < (k : ℤ)) →
      Exact (doubleScalarLoop control_var control_pre l k contv contp out)
        (7 * k + 8 * Rv.length + 7 * Rp.length + if k = 0 then 0 else 1) []
  | 0, contv, contp, out, Rv, Rp, hv, hp, gv, gp, bv, bp => by
    have ev : Rv = [] := by
      rcases Rv with _ | ⟨x, xs⟩
      · rfl
      · have := bv x (by simp)
        have := (gv.digit x (by simp)).2.2.2
        push_cast at *
        omega
    have ep : Rp = [] := by
      rcases Rp with _ | ⟨x, xs⟩
      · rfl
      · have := bp x (by simp)
        have := (gp.digit x (by simp)).2.2.2
        push_cast at *
        omega
    subst ev ep
    exact Exact.pure _
  | k + 1, contv, contp, out, Rv, Rp, hv, hp, gv, gp, bv, bp => by
    obtain ⟨ev, Rv', dv, v1, v2, v3, v4, -⟩ := next_digit (k := k) hv gv (by simpa using bv)
    obtain ⟨ep, Rp', dp, p1, p2, p3, p4, -⟩ := next_digit (k := k) hp gp (by simpa using bp)
    have lv := length_next hv v2
    have lp := length_next hp p2
    rw [doubleScalarLoop, v1, p1, free_ok_bind, free_ok_bind]
    dsimp only
    generalize ((k : ℤ) == ev.power) = cv at *
    generalize ((k : ℤ) == ep.power) = cp at *
    have hs := step_cost k cv cp
    have hk : (if k = 0 then 1 else 0) + (if k = 0 then 0 else 1) = 1 := by split <;> rfl
    refine (double_exact _ _).then (k' := cond cv (cond ((k : ℤ) != 0 && !cp) 7 8) 0 + (cond cp (cond ((k : ℤ) != 0) 6 7) 0 +
      (7 * k + 8 * Rv'.length + 7 * Rp'.length + if k = 0 then 0 else 1))) (fun out => ?_) (by rw [if_neg (show ¬ (k + 1 = 0) by omega)]; omega) rfl
    refine Exact.then (k := cond cv (cond ((k : ℤ) != 0 && !cp) 7 8) 0) (h := []) ?_ (fun out => ?_) rfl rfl
    · cases cv
      · exact Exact.pure _
      · exact addVar_exact _ _ _ _ _
    · refine Exact.then (k := cond cp (cond ((k : ℤ) != 0) 6 7) 0) (h := []) ?_ (fun out => ?_) rfl rfl
      · cases cp
        · exact Exact.pure _
        · exact addPre_exact _ _ _
      · exact dsLoop_exact control_var control_pre rv rp l k _ _ out Rv' Rp' v2 p2 v3 p3 v4 p4

/-- Spaced digits are few. -/
theorem GoodDigits.few {tb : ℕ} {x : SmvtControl} {xs : List SmvtControl} (h : GoodDigits tb (x :: xs)) : (xs.length : ℤ) * (tb + 2) ≤ x.power := by
  induction xs generalizing x with
  | nil => simpa using (h.digit x (by simp)).2.2.2
  | cons y ys ih =>
    have hs := h.spaced
    rw [List.pairwise_cons] at hs
    have h1 := hs.1 y (by simp)
    have h2 := ih ⟨fun z hz => h.digit z (List.mem_cons_of_mem _ hz), hs.2⟩
    rw [List.length_cons]
    push_cast
    linarith

/-- A list of digits is smaller than twice the weight of its first digit. -/
theorem GoodDigits.small {tb : ℕ} {x : SmvtControl} {xs : List SmvtControl} (h : GoodDigits tb (x :: xs)) :
    |digitsVal (x :: xs)| < 2 ^ (x.power.toNat + tb + 1) := by
  induction xs generalizing x with
  | nil =>
    obtain ⟨-, h1, h2, -⟩ := h.digit x (by simp)
    rw [digitsVal, digitsVal, add_zero, abs_mul, abs_of_pos (show (0 : ℤ) < 2 ^ x.power.toNat by positivity), add_assoc, pow_add, mul_comm]
    exact mul_lt_mul_of_pos_left (abs_lt.mpr ⟨h1, h2⟩) (by positivity)
  | cons y ys ih =>
    have hs := h.spaced
    rw [List.pairwise_cons] at hs
    have h1 := hs.1 y (by simp)
    have h2 := ih ⟨fun z hz => h.digit z (List.mem_cons_of_mem _ hz), hs.2⟩
    obtain ⟨-, a1, a2, -⟩ := h.digit x (by simp)
    have hy := (h.digit y (by simp)).2.2.2
    have h3 : (2 : ℤ) ^ (y.power.toNat + tb + 1) ≤ 2 ^ x.power.toNat := pow_le_pow_right₀ (by norm_num) (by omega)
    have h4 : |x.addend| ≤ 2 ^ (tb + 1) - 1 := by
      have := abs_lt.mpr ⟨a1, a2⟩
      omega
    have h5 : (0 : ℤ) < 2 ^ x.power.toNat := by positivity
    rw [digitsVal]
    calc |x.addend * 2 ^ x.power.toNat + digitsVal (y :: ys)| ≤ |x.addend * 2 ^ x.power.toNat| + |digitsVal (y :: ys)| := abs_add_le _ _
      _ < (2 ^ (tb + 1) - 1) * 2 ^ x.power.toNat + 2 ^ x.power.toNat := by
          rw [abs_mul, abs_of_pos h5]
          have := mul_le_mul_of_nonneg_right h4 h5.le
          linarith
      _ = 2 ^ (x.power.toNat + tb + 1) := by ring

/-- The first digit of a number up to `2^446` is at most at position 446. -/
theorem top_power {tb V : ℕ} {x : SmvtControl} {xs : List SmvtControl} (h : GoodDigits tb (x :: xs)) (hx : 0 < x.addend)
    (hv : digitsVal (x :: xs) = V) (hV : V ≤ 2 ^ 446) : x.power ≤ 446 := by
  by_contra hc
  have hp : 447 ≤ x.power.toNat := by omega
  have h1 : -(2 : ℤ) ^ (x.power.toNat - 1) < digitsVal xs := by
    rcases xs with _ | ⟨y, ys⟩
    · rw [digitsVal, neg_lt_zero]
      positivity
    · have hs := h.spaced
      rw [List.pairwise_cons] at hs
      have a1 := hs.1 y (by simp)
      have a2 := GoodDigits.small (x := y) (xs := ys) ⟨fun z hz => h.digit z (List.mem_cons_of_mem _ hz), hs.2⟩
      have hy := (h.digit y (by simp)).2.2.2
      have h3 : (2 : ℤ) ^ (y.power.toNat + tb + 1) ≤ 2 ^ (x.power.toNat - 1) := pow_le_pow_right₀ (by norm_num) (by omega)
      have := (abs_lt.mp a2).1
      linarith
  have h2 : (2 : ℤ) ^ x.power.toNat = 2 * 2 ^ (x.power.toNat - 1) := by
    rw [← pow_succ']
    congr 1
    omega
  have h3 : (2 : ℤ) ^ 446 ≤ 2 ^ (x.power.toNat - 1) := pow_le_pow_right₀ (by norm_num) (by omega)
  have h4 : (1 : ℤ) * 2 ^ x.power.toNat ≤ x.addend * 2 ^ x.power.toNat := mul_le_mul_of_nonneg_right (by omega) (by positivity)
  rw [digitsVal] at hv
  have h5 : (V : ℤ) ≤ 2 ^ 446 := by exact_mod_cast hV
  linarith

theorem result_bind_ok {α β : Type} {x : Cost α} {f : α → Cost β} {b : β} (h : (x >>= f).result = .ok b) :
    ∃ a, x.result = .ok a ∧ (f a).result = .ok b := by
  rw [bind_result] at h
  rcases hx : x.result with e | a
  · rw [hx] at h
    cases h
  · rw [hx] at h
    exact ⟨a, rfl, h⟩

/-- The first digit belongs to the first scalar. -/
theorem first_var {v0 p0 : SmvtControl} (l : List PNiels) (h : p0.power < v0.power) :
    AtMost (firstDigits v0 p0 l) 4 [] ∧ ∀ r, (firstDigits v0 p0 l).result = .ok r → r.2 = (v0.power, 1, 0) := by
  rw [firstDigits]
  rw [if_pos h]
  constructor
  · refine ((Exact.free _).then (k' := 4) (fun e => ?_) rfl rfl).atMost
    exact (Exact.of_eq (to_extended_point_eq e)).then (fun _ => Exact.pure _) rfl rfl
  · intro r hr
    obtain ⟨_, -, hr⟩ := result_bind_ok hr
    obtain ⟨_, -, hr⟩ := result_bind_ok hr
    cases hr
    rfl

/-- The first digits are at the same position. -/
theorem first_both {v0 p0 : SmvtControl} (l : List PNiels) (h : v0.power = p0.power) (h0 : 0 ≤ v0.power) :
    AtMost (firstDigits v0 p0 l) 11 [] ∧ ∀ r, (firstDigits v0 p0 l).result = .ok r → r.2 = (v0.power, 1, 1) := by
  rw [firstDigits]
  rw [if_neg (by omega), if_pos ⟨h, h0⟩]
  constructor
  · refine ((Exact.free _).atMost.bind (k' := 11) fun e _ => ?_).mono (by norm_num) (List.prefix_refl _)
    refine ((Exact.of_eq (to_extended_point_eq e)).atMost.bind (k' := 7) fun out _ => ?_).mono (by norm_num) (List.prefix_refl _)
    refine ((Exact.free _).atMost.bind (k' := 7) fun f _ => ?_).mono (by norm_num) (List.prefix_refl _)
    refine ((add_niels_exact _ _ _).atMost.bind (k' := 0) fun f _ => AtMost.nothing _ _ _).mono ?_ (List.prefix_refl _)
    cases (v0.power != 0) <;> simp
  · intro r hr
    obtain ⟨_, -, hr⟩ := result_bind_ok hr
    obtain ⟨_, -, hr⟩ := result_bind_ok hr
    obtain ⟨_, -, hr⟩ := result_bind_ok hr
    obtain ⟨_, -, hr⟩ := result_bind_ok hr
    cases hr
    rfl

/-- The first digit belongs to the second scalar, or there is none. -/
theorem first_pre {v0 p0 : SmvtControl} (l : List PNiels) (h : v0.power ≤ p0.power) (h0 : v0.power = p0.power → v0.power < 0) :
    AtMost (firstDigits v0 p0 l) 1 [] ∧ ∀ r, (firstDigits v0 p0 l).result = .ok r → r.2 = (p0.power, 0, 1) := by
  rw [firstDigits]
  rw [if_neg (by omega), if_neg (by omega)]
  constructor
  · refine ((Exact.free _).then (k' := 1) (fun e => ?_) rfl rfl).atMost
    exact (Exact.of_eq (to_extended_eq e)).then (fun _ => Exact.pure _) rfl rfl
  · intro r hr
    obtain ⟨_, -, hr⟩ := result_bind_ok hr
    obtain ⟨_, -, hr⟩ := result_bind_ok hr
    cases hr
    rfl

theorem double_scalarmul_atMost (p : Pt) (sp sv : Scalar) (hsp : sp.val ≤ 2 ^ 446) (hsv : sv.val ≤ 2 ^ 446) :
    AtMost (point_double_scalamul_non_secret p sp sv) 4360 [] := by
  obtain ⟨cp, Lp, p1, p2⟩ := recode_wnaf_spec (tb := 5) (by norm_num) (List.replicate 77 ⟨0, 0⟩) (by simp) sp hsp
  obtain ⟨cv, Lv, v1, v2⟩ := recode_wnaf_spec (tb := 3) (by norm_num) (List.replicate 115 ⟨0, 0⟩) (by simp) sv hsv
  obtain ⟨rp, hrp⟩ := p2.ctl
  obtain ⟨rv, hrv⟩ := v2.ctl
  rw [point_double_scalamul_non_secret, p1, v1, free_ok_bind, free_ok_bind]
  refine ((prepare_wnaf_exact p).atMost.bind (k' := 4287) fun l _ => ?_).mono (by norm_num) (List.prefix_refl _)
  have hnil : ∀ tb, GoodDigits tb [] := fun tb => ⟨fun x hx => absurd hx (by simp), List.Pairwise.nil⟩
  -- it is enough to know the first digits and the state after them
  have fin : ∀ (v0 p0 : SmvtControl) (k c0 contv contp : ℕ) (Rv Rp : List SmvtControl),
      (AtMost (firstDigits v0 p0 l) c0 [] ∧ ∀ r, (firstDigits v0 p0 l).result = .ok r → r.2 = ((k : ℤ), contv, contp)) →
      cv.drop contv = Rv ++ ⟨-1, 0⟩ :: rv → cp.drop contp = Rp ++ ⟨-1, 0⟩ :: rp →
      GoodDigits 3 Rv → GoodDigits 5 Rp → (∀ x ∈ Rv, x.power < (k : ℤ)) → (∀ x ∈ Rp, x.power < (k : ℤ)) →
      c0 + (7 * k + 8 * Rv.length + 7 * Rp.length + 1) ≤ 4287 →
      AtMost (firstDigits v0 p0 l >>= fun r => if r.2.1 < 0 then pure Pt.identity
        else doubleScalarLoop cv cp l r.2.1.toNat r.2.2.1 r.2.2.2 r.1) 4287 [] := by
    intro v0 p0 k c0 contv contp Rv Rp a1 a2 a3 a4 a5 a6 a7 a8
    refine (a1.1.bind (k' := 7 * k + 8 * Rv.length + 7 * Rp.length + 1) fun r hr => ?_).mono a8 (List.prefix_refl _)
    have hr := a1.2 r hr
    rw [hr]
    dsimp only
    rw [if_neg (by omega), Int.toNat_natCast]
    refine (dsLoop_exact cv cp rv rp l k contv contp r.1 Rv Rp a2 a3 a4 a5 a6 a7).atMost.mono ?_ (List.prefix_refl _)
    split <;> omega
  rcases head_eq hrv with ⟨ev, iv⟩ | ⟨xv, xsv, ev, iv, dv⟩ <;> rcases head_eq hrp with ⟨ep, ip⟩ | ⟨xp, xsp, ep, ip, dp⟩ <;>
    rw [iv, ip, free_ok_bind, free_ok_bind]
  · obtain ⟨h1, h2⟩ := first_pre (v0 := ⟨-1, 0⟩) (p0 := ⟨-1, 0⟩) l (le_refl _) (fun _ => by norm_num)
    refine (h1.bind (k' := 0) fun r hr => ?_).mono (by norm_num) (List.prefix_refl _)
    rw [h2 r hr]
    exact AtMost.nothing _ _ _
  · obtain ⟨n, n1, n2, -, -, n5, n6, -⟩ := p2.first ep
    have t1 := top_power (ep ▸ p2.good) n2 (ep ▸ p2.val) hsp
    have t2 := GoodDigits.few (ep ▸ p2.good : GoodDigits 5 (xp :: xsp))
    refine fin _ _ n 1 0 1 [] xsp ?_ (by rw [List.drop_zero, hrv, ev]) dp (hnil 3) n5 (fun x hx => absurd hx (by simp)) n6 ?_
    · rw [← n1]
      exact first_pre l (by dsimp only; omega) (by dsimp only; omega)
    · rw [List.length_nil]
      push_cast at t2
      omega
  · obtain ⟨n, n1, n2, -, -, n5, n6, -⟩ := v2.first ev
    have t1 := top_power (ev ▸ v2.good) n2 (ev ▸ v2.val) hsv
    have t2 := GoodDigits.few (ev ▸ v2.good : GoodDigits 3 (xv :: xsv))
    refine fin _ _ n 4 1 0 xsv [] ?_ dv (by rw [List.drop_zero, hrp, ep]) n5 (hnil 5) n6 (fun x hx => absurd hx (by simp)) ?_
    · rw [← n1]
      exact first_var l (by dsimp only; omega)
    · rw [List.length_nil]
      push_cast at t2
      omega
  · obtain ⟨n, n1, n2, -, -, n5, n6, -⟩ := v2.first ev
    obtain ⟨m, m1, m2, -, -, m5, m6, -⟩ := p2.first ep
    have t1 := top_power (ev ▸ v2.good) n2 (ev ▸ v2.val) hsv
    have t2 := GoodDigits.few (ev ▸ v2.good : GoodDigits 3 (xv :: xsv))
    have t3 := top_power (ep ▸ p2.good) m2 (ep ▸ p2.val) hsp
    have t4 := GoodDigits.few (ep ▸ p2.good : GoodDigits 5 (xp :: xsp))
    push_cast at t2 t4
    rcases lt_trichotomy n m with hlt | heq | hgt
    · refine fin _ _ m 1 0 1 (xv :: xsv) xsp ?_ (by rw [List.drop_zero, hrv, ev]) dp (ev ▸ v2.good) m5 ?_ m6 ?_
      · rw [← m1]
        exact first_pre l (by omega) (by omega)
      · intro x hx
        rcases List.mem_cons.mp hx with rfl | hx
        · omega
        · have := n6 x hx
          omega
      · rw [List.length_cons]
        omega
    · refine fin _ _ n 11 1 1 xsv xsp ?_ dv dp n5 m5 n6 (by rw [heq]; exact m6) ?_
      · rw [← n1]
        exact first_both l (by omega) (by omega)
      · omega
    · refine fin _ _ n 4 1 0 xsv (xp :: xsp) ?_ dv (by rw [List.drop_zero, hrp, ep]) n5 (ep ▸ p2.good) n6 ?_ ?_
      · rw [← n1]
        exact first_var l (by omega)
      · intro x hx
        rcases List.mem_cons.mp hx with rfl | hx
        · omega
        · have := m6 x hx
          omega
      · rw [List.length_cons]
        omega

theorem verifyPoints_atMost (xof : Xof) (p p2 r : Pt) (sig1 sig2 : Arr Byte 57) (m : List Byte) :
    AtMost (verifyPoints xof p p2 r sig1 sig2 m) 8896 [124 + m.length] := by
  have hz : SCALAR_ZERO.val < q := by rw [SCALAR_ZERO_val]; exact q_pos
  have hlt : ∀ b, (decode_long b).val < q := fun b => by rw [decode_long_val]; exact Nat.mod_lt _ q_pos
  rw [verifyPoints]
  refine ((point_scalar_mul_exact _ _).atMost.bind (k' := 4831) fun r _ => ?_).mono (by norm_num) (List.prefix_refl _)
  refine ((encode_exact _).atMost.bind (k' := 4360) fun a _ => ?_).mono (by norm_num) (List.prefix_refl _)
  refine ((hash_exact xof (sig1.1 ++ a.1 ++ m) 114 (124 + m.length) (by rw [List.length_append, List.length_append, sig1.2, a.2]; omega)).atMost.bindQuiet
    (k' := 4360) fun c => ?_).mono (by norm_num) (List.prefix_refl _)
  refine ((double_scalarmul_atMost _ _ _ (le_of_lt (lt_trans (hlt _) q_lt)) ?_).bind (k' := 0) fun _ _ => AtMost.nothing _ _ _).mono (by norm_num)
    (List.prefix_refl _)
  rw [scalarSub_val _ _ hz (hlt _)]
  exact le_of_lt (lt_trans (Nat.mod_lt _ q_pos) q_lt)

theorem dsa_verify_atMost (xof : Xof) (pubkey sig m : List Byte) : AtMost (dsa_verify xof pubkey sig m) 22049 [124 + m.length] := by
  rw [dsa_verify]
  refine ((decode_atMost _).bind (k' := 17506) fun r _ => ?_).mono (by norm_num) (List.prefix_refl _)
  cases r with
  | error e => cases e <;> exact AtMost.nothing _ _ _
  | ok p =>
    dsimp only
    refine ((point_scalar_mul_exact _ _).atMost.bind (k' := 13441) fun p2 _ => ?_).mono (by norm_num) (List.prefix_refl _)
    refine ((Exact.free _).atMost.bind (k' := 13441) fun sig1 _ => ?_).mono (by norm_num) (List.prefix_refl _)
    refine ((Exact.free _).atMost.bind (k' := 13441) fun sig2 _ => ?_).mono (by norm_num) (List.prefix_refl _)
    refine ((decode_atMost _).bind (k' := 8898) fun r _ => ?_).mono (by norm_num) (List.prefix_refl _)
    cases r with
    | error e => cases e <;> exact AtMost.nothing _ _ _
    | ok r =>
      refine ((verifyPoints_atMost xof p p2 r sig1 sig2 m).bindQuiet (k' := 2) fun x => ?_).mono (by norm_num) (List.prefix_refl _)
      exact ((Exact.of_eq (mod_equal_eq _ _)).then (fun _ => Exact.pure _) rfl rfl).atMost

theorem ed448_verify_atMost (xof : Xof) (pubkey sig m : List Byte) : AtMost (ed448_verify xof pubkey sig m) 22049 [124 + m.length] := by
  rw [ed448_verify]
  split
  · exact AtMost.nothing _ _ _
  · exact dsa_verify_atMost ..

/-! ## The cost in each case -/

theorem eq_mk {α : Type} {x : Cost α} {k : ℕ} {h : List ℕ} {r : Rust α} (h1 : x.mults = k) (h2 : x.hashed = h) (h3 : x.result = r) :
    x = ⟨k, h, r⟩ := by
  subst h1 h2 h3
  rfl

theorem bind_cost {α β : Type} {x : Cost α} {f : α → Cost β} {b : β} (h : (x >>= f).result = .ok b) :
    ∃ a, x.result = .ok a ∧ (f a).result = .ok b ∧ (x >>= f).mults = x.mults + (f a).mults ∧ (x >>= f).hashed = x.hashed ++ (f a).hashed := by
  obtain ⟨a, h1, h2⟩ := result_bind_ok h
  refine ⟨a, h1, h2, ?_, ?_⟩ <;> rw [bind_def, andThen, h1]

theorem pure_mults {α : Type} (a : α) : (pure a : Cost α).mults = 0 := rfl

theorem pure_inj {α : Type} {a b : α} (h : (pure a : Cost α).result = .ok b) : a = b := Except.ok.inj h

theorem decodeFinish_cost {p : Pt} {succ : W32} {r : Except Err Pt} (h : (decodeFinish p succ).result = .ok r) :
    (∀ p', r = .ok p' → (decodeFinish p succ).mults = 4072) ∧ (r = .error .DecodeError → (decodeFinish p succ).mults = 7) := by
  rw [decodeFinish] at h ⊢
  dsimp only at h ⊢
  generalize halve (halve SCALAR_ONE) = s at h ⊢
  obtain ⟨ok, c1, h, c2, -⟩ := bind_cost h
  rw [c2, ((is_on_curve_exact _).eq ok c1).1]
  clear c2
  by_cases hc : (!ok || succ == 0) = true
  · rw [if_pos hc] at h ⊢
    rw [← pure_inj h, pure_mults]
    exact ⟨(fun p h => by cases h), (fun _ => by rfl)⟩
  · rw [if_neg hc] at h ⊢
    obtain ⟨p', d1, h, d2, -⟩ := bind_cost h
    rw [← pure_inj h]
    refine ⟨fun _ _ => ?_, (fun h => by cases h)⟩
    rw [d2, ((point_scalar_mul_exact _ _).eq p' d1).1, pure_mults]

/-- Decoding a string of 57 bytes takes 4543 multiplications if it succeeds and 478 if it fails. -/
theorem decode_cost {b : List Byte} {r : Except Err Pt} (h : (eddsa_like_decode b).result = .ok r) : (eddsa_like_decode b).hashed = [] ∧
    (∀ p, r = .ok p → (eddsa_like_decode b).mults = 4543) ∧ (r = .error .DecodeError → (eddsa_like_decode b).mults = 478) := by
  refine ⟨List.prefix_nil.mp (decode_atMost b).pre, ?_⟩
  rw [eddsa_like_decode] at h ⊢
  by_cases hb : b.length = 57
  · rw [dif_pos hb] at h ⊢
    rw [eddsaDecode57] at h ⊢
    obtain ⟨x, a1, h, a2, -⟩ := bind_cost h
    obtain ⟨p, b1, h, b2, -⟩ := bind_cost h
    rw [a2, b2, ((decodeRoot_exact _ _).eq x a1).1, ((Exact.of_eq (decodeIsogeny_eq _ _)).eq p b1).1]
    obtain ⟨h1, h2⟩ := decodeFinish_cost h
    exact ⟨fun p hp => by rw [h1 p hp], fun hp => by rw [h2 hp]⟩
  · rw [dif_neg hb] at h ⊢
    cases h
    exact ⟨(fun p h => by cases h), (fun h => by cases h)⟩

/-- A verification that answers computes both points. -/
theorem verifyPoints_cost {xof : Xof} {p p2 r : Pt} {sig1 sig2 : Arr Byte 57} {m : List Byte} {x : Pt × Pt}
    (h : (verifyPoints xof p p2 r sig1 sig2 m).result = .ok x) :
    4609 ≤ (verifyPoints xof p p2 r sig1 sig2 m).mults ∧ (verifyPoints xof p p2 r sig1 sig2 m).hashed = [124 + m.length] := by
  have hpre := (verifyPoints_atMost xof p p2 r sig1 sig2 m).pre
  rw [verifyPoints] at h hpre ⊢
  obtain ⟨r', a1, h, a2, a3⟩ := bind_cost h
  obtain ⟨a, b1, h, b2, b3⟩ := bind_cost h
  obtain ⟨c, c1, h, c2, c3⟩ := bind_cost h
  obtain ⟨k, d1, h, d2, d3⟩ := bind_cost h
  obtain ⟨e1, e2⟩ := (point_scalar_mul_exact _ _).eq r' a1
  obtain ⟨f1, f2⟩ := (encode_exact _).eq a b1
  obtain ⟨g1, g2⟩ := (hash_exact xof (sig1.1 ++ a.1 ++ m) 114 (124 + m.length)
    (by rw [List.length_append, List.length_append, sig1.2, a.2]; omega)).eq c c1
  rw [a3, b3, c3, e2, f2, g2] at hpre ⊢
  rw [a2, b2, c2, d2, e1, f1, g1]
  refine ⟨?_, ?_⟩
  · have hds : 73 ≤ (point_double_scalamul_non_secret p2 (decode_long sig2.1) (scalarSub SCALAR_ZERO (decode_long c.1))).mults := by
      generalize scalarSub SCALAR_ZERO (decode_long c.1) = sv at *
      rw [point_double_scalamul_non_secret] at d1 ⊢
      obtain ⟨_, -, d1, i1, -⟩ := bind_cost d1
      obtain ⟨_, -, d1, i2, -⟩ := bind_cost d1
      obtain ⟨l, hl, d1, i3, -⟩ := bind_cost d1
      rw [i1, i2, i3, ((prepare_wnaf_exact _).eq l hl).1]
      omega
    omega
  · simp only [List.nil_append] at hpre ⊢
    simpa using hpre

end Ed448.Cost
