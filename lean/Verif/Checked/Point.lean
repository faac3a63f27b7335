import Verif.Checked.Ops
import Verif.Curve.Comb
import Verif.Curve.DoubleMul

/-!
# The checked loops of src/extended_point.rs: windows and combs
-/

namespace Ed448

theorem shl32_ok (x : W32) {n : ℕ} (h : n < 32) : shl32 x n = .ok (x <<< n) := if_pos h
theorem shr32_ok (x : W32) {n : ℕ} (h : n < 32) : shr32 x n = .ok (x >>> n) := if_pos h
theorem chkI32_ok {x : ℤ} (h1 : -2 ^ 31 ≤ x) (h2 : x < 2 ^ 31) : chkI32 x = .ok x := if_pos ⟨h1, h2⟩

theorem error_bind {α β : Type} (e : Panic) (f : α → Rust β) : ((Except.error e : Rust α) >>= f) = .error e := rfl

theorem bind_assoc' {α β γ : Type} (x : Rust α) (f : α → Rust β) (g : β → Rust γ) : ((x >>= f) >>= g) = (x >>= fun a => f a >>= g) := by
  cases x <;> rfl

attribute [local irreducible] Pt.double_internal Pt.add_projected_niels_to_extended Pt.to_projected_niels PNiels.to_extended_point
  TwistedNiels.conditional_negate TwistedNiels.to_extended Pt.add_niels_to_extended scalarAdd halve DECAF_PRECOMP_TABLE
  Pt.prepare_fixed_window Ed448.combTab Ed448.combSelect selectMultiple Chk.windowBody
  Chk.conditional_negate Chk.double_internal Chk.add_projected_niels_to_extended Chk.to_projected_niels Chk.to_extended_point Chk.add_niels_to_extended Chk.to_extended

/-! ## `prepare_fixed_window` -/

theorem fixedWindow_loop (pn : PNiels) : ∀ (n a : ℕ) (out : List PNiels) (p : Pt),
    (do
      let (out, _) ← loop (fun _ (out, p) => do
        let p ← Chk.add_projected_niels_to_extended p pn false
        let e ← Chk.to_projected_niels p
        pure (out ++ [e], p)) (List.range' a n) (out, p)
      pure out) = (fixedWindowLoop pn n p >>= fun r => pure (out ++ r))
  | 0, a, out, p => by
    simp only [List.range', loop, fixedWindowLoop, pure_ok, bind_ok', List.append_nil]
  | n + 1, a, out, p => by
    rw [List.range', loop, fixedWindowLoop]
    dsimp only
    rw [Chk.add_projected_niels_to_extended_eq, bind_ok', Chk.to_projected_niels_eq]
    generalize Pt.add_projected_niels_to_extended p pn false = p'
    cases p'.to_projected_niels with
    | error e => simp only [error_bind]
    | ok e =>
      rw [bind_ok', pure_ok, bind_ok', bind_ok']
      rw [fixedWindow_loop pn n (a + 1) (out ++ [e]) p', bind_assoc']
      cases fixedWindowLoop pn n p' with
      | error e => simp only [error_bind]
      | ok r => simp [bind_ok', pure_ok]

theorem Chk.prepare_fixed_window_eq (p : Pt) : Chk.prepare_fixed_window p = p.prepare_fixed_window := by
  rw [Chk.prepare_fixed_window, Pt.prepare_fixed_window]
  dsimp only
  rw [Chk.double_internal_eq, bind_ok', Chk.to_projected_niels_eq, Chk.to_projected_niels_eq]
  cases (p.double_internal false).to_projected_niels with
  | error e => simp only [error_bind]
  | ok pn =>
    rw [bind_ok', bind_ok']
    cases p.to_projected_niels with
    | error e => simp only [error_bind]
    | ok e =>
      rw [bind_ok', bind_ok', fixedWindow_loop pn 15 1 [e] p]
      rfl

/-! ## `point_scalar_mul` -/

theorem windowBits_eq (s : List W32) (i1 : ℕ) {β : Type} (f : W32 × W32 → Rust β) : (Chk.windowWord s i1 >>= fun bits => do
      let window_mask ← subU (1 <<< 5) 1
      let bits := bits &&& BitVec.ofNat 32 window_mask
      let n ← subU 5 1
      let b ← shr32 bits n
      let inv := b - 1
      f (bits ^^^ inv, inv)) = (windowBits s i1 >>= f) := by
  rw [Chk.windowWord, windowBits]
  by_cases h : i1 / 32 < s.length
  · rw [idx_eq _ _ h, bind_ok', bind_ok', shr32_ok _ (by omega), bind_ok', subU_ok (by norm_num), bind_ok', subU_ok (by norm_num), bind_ok']
    by_cases hc : i1 % 32 ≥ 32 - 5 ∧ i1 / 32 < 14 - 1
    · rw [if_pos hc, if_pos hc]
      by_cases h2 : i1 / 32 + 1 < s.length
      · rw [idx_eq _ _ h2, bind_ok', bind_ok', subU_ok (by omega), bind_ok', shl32_ok _ (by omega), bind_ok', pure_ok, bind_ok', bind_ok']
        rfl
      · have : idx s (i1 / 32 + 1) = .error .bounds := by simp [idx, h2]
        simp only [this, error_bind]
    · rw [if_neg hc, if_neg hc]
      rfl
  · have : idx s (i1 / 32) = .error .bounds := by simp [idx, h]
    simp only [this, error_bind]

theorem asUsize_nat {k : ℕ} (h : k < 2 ^ 64) : asUsize (k : ℤ) = k := by
  have := toNat_ofInt64 (k : ℤ) (by omega) (by omega)
  exact_mod_cast this

theorem forTo_double (out : Pt) : forTo 4 out (fun _ out => Chk.double_internal out true) = .ok (Pt.doubleTimes 4 out) := by
  simp only [Chk.double_internal_eq]
  rfl

theorem windowBody_eq (multiples : List PNiels) (s : List W32) (out : Pt) (first : Bool) (k : ℕ) (hk : k < 2 ^ 20) :
    Chk.windowBody multiples s (out, first, (k : ℤ)) = (selectMultiple multiples s k >>= fun p_neg =>
      pure (if first then p_neg.to_extended_point else ((Pt.doubleTimes 4 out).double_internal false).add_projected_niels_to_extended p_neg false,
        false, (k : ℤ) - 5)) := by
  rw [Chk.windowBody]
  dsimp only
  rw [asUsize_nat (by omega), selectMultiple, bind_assoc']
  rw [← windowBits_eq s k]
  congr 1
  funext bits
  rw [subU_ok (by decide), bind_ok', bind_ok', subU_ok (by norm_num), bind_ok', bind_ok', shr32_ok _ (by norm_num), bind_ok', bind_ok']
  dsimp only
  rw [bind_assoc']
  congr 1
  funext e
  rw [Chk.conditional_negate_eq, bind_ok', pure_ok, bind_ok', pure_ok, chkI32_ok (by omega) (by omega)]
  cases first with
  | true =>
    rw [Chk.windowAdd, if_pos rfl, Chk.to_extended_point_eq, bind_ok', bind_ok', if_pos rfl, pure_ok]
  | false =>
    rw [Chk.windowAdd, if_neg (by simp), if_neg (by simp), subU_ok (by norm_num), bind_ok', show (5 - 1 : ℕ) = 4 from rfl, forTo_double, bind_ok', Chk.double_internal_eq, bind_ok',
      Chk.add_projected_niels_to_extended_eq, bind_ok', bind_ok', pure_ok]

theorem window_while (multiples : List PNiels) (s : List W32) : ∀ (k f : ℕ) (out : Pt), k < f → k < 2 ^ 16 →
    (while' (fun st : Pt × Bool × ℤ => decide (st.2.2 ≥ 0)) (Chk.windowBody multiples s) f (out, false, 5 * (k : ℤ) - 5) >>= fun st => pure st.1) =
      scalarMulLoop multiples s k out
  | 0, f + 1, out, _, _ => rfl
  | k + 1, f + 1, out, h, h2 => by
    have e : 5 * ((k + 1 : ℕ) : ℤ) - 5 = ((5 * k : ℕ) : ℤ) := by push_cast; ring
    rw [while', if_pos (decide_eq_true (by dsimp only; omega)), e, windowBody_eq _ _ _ _ _ (by omega), scalarMulLoop]
    cases selectMultiple multiples s (5 * k) with
    | error e => simp only [error_bind]
    | ok p_neg =>
      rw [bind_ok', bind_ok', pure_ok, bind_ok', if_neg (by simp)]
      have := window_while multiples s k f ((Pt.doubleTimes 4 out).double_internal false |>.add_projected_niels_to_extended p_neg false) (by omega) (by omega)
      push_cast at this ⊢
      exact this

/-- The windowed multiplication: the exponent `i` stays in the range of an `i32`, the word indices inside the scalar and the index inside the table. -/
theorem Chk.point_scalar_mul_eq (p : Pt) (s : Scalar) : Chk.point_scalar_mul p s.1 = p.point_scalar_mul s := by
  rw [Chk.point_scalar_mul, Pt.point_scalar_mul, Chk.add_eq, bind_ok', Chk.halve_eq, bind_ok', Chk.prepare_fixed_window_eq]
  dsimp only
  generalize (Ed448.halve (Ed448.scalarAdd s scalar_adjustment)).1 = l
  cases p.prepare_fixed_window with
  | error e => simp only [error_bind]
  | ok multiples =>
    rw [bind_ok', bind_ok', subU_ok (by norm_num), bind_ok', subU_ok (by norm_num), bind_ok', subU_ok (by norm_num), bind_ok',
      show ((446 - (446 - 1) % 5 - 1 : ℕ) : ℤ) = ((445 : ℕ) : ℤ) from rfl, while', if_pos (by decide), windowBody_eq _ _ _ _ _ (by norm_num)]
    cases selectMultiple multiples l 445 with
    | error e => simp only [error_bind]
    | ok p_neg =>
      rw [bind_ok', bind_ok', pure_ok, bind_ok', if_pos rfl]
      exact window_while multiples l 89 90 _ (by norm_num) (by norm_num)

/-! ## `precomputed_scalar_mul` -/

theorem combTab_loop (s : List W32) (i j : ℕ) : ∀ (ks : List ℕ) (tab : W32), (∀ k ∈ ks, k < 32) →
    loop (fun k (tab : W32) =>
      let bit := i + 18 * (k + j * 5)
      if bit < 446 then do
        let w ← idx s (bit / 32)
        let b ← shr32 w (bit % 32)
        let t ← shl32 (b &&& 1) k
        pure (tab ||| t)
      else pure tab) ks tab = combTab s i j ks tab
  | [], _, _ => by rw [loop, combTab]
  | k :: ks, tab, h => by
    rw [loop, combTab]
    dsimp only
    by_cases hb : i + 18 * (k + j * 5) < 446
    · rw [if_pos hb, if_pos hb]
      cases idx s ((i + 18 * (k + j * 5)) / 32) with
      | error e => simp only [error_bind]
      | ok w =>
        rw [bind_ok', bind_ok', shr32_ok _ (by omega), bind_ok', shl32_ok _ (h k (by simp)), bind_ok', pure_ok, bind_ok', bind_ok']
        exact combTab_loop s i j ks _ (fun k hk => h k (by simp [hk]))
    · rw [if_neg hb, if_neg hb]
      exact combTab_loop s i j ks _ (fun k hk => h k (by simp [hk]))

theorem Chk.combTab_eq (s : List W32) (i j : ℕ) : Chk.combTab s i j = Ed448.combTab s i j [0, 1, 2, 3, 4] 0 :=
  combTab_loop s i j [0, 1, 2, 3, 4] 0 (by decide)

theorem comb_invert (tab : W32) : chkI32 (tab.toInt / 2 ^ (5 - 1) - 1) = .ok (tab.toInt / 2 ^ 4 - 1) ∧
    BitVec.ofInt 32 (tab.toInt / 2 ^ 4 - 1) = tab.sshiftRight 4 - 1 := by
  have h1 := BitVec.toInt_lt (x := tab)
  have h2 := BitVec.le_toInt (x := tab)
  norm_num at h1 h2
  refine ⟨chkI32_ok (by norm_num; omega) (by norm_num; omega), ?_⟩
  apply BitVec.eq_of_toInt_eq
  rw [BitVec.toInt_sub, BitVec.toInt_sshiftRight, BitVec.toInt_ofInt, Int.shiftRight_eq_div_pow]
  rfl

theorem Chk.combSelect_eq (s : List W32) (i j : ℕ) : Chk.combSelect s i j = Ed448.combSelect s i j := by
  rw [Chk.combSelect, Ed448.combSelect, Chk.combTab_eq]
  cases Ed448.combTab s i j [0, 1, 2, 3, 4] 0 with
  | error e => simp only [error_bind]
  | ok tab =>
    rw [bind_ok', bind_ok', subU_ok (by norm_num), bind_ok', (comb_invert tab).1, bind_ok', (comb_invert tab).2]
    simp only [Chk.conditional_negate_eq]
    rfl

theorem comb_inner (s : List W32) (i : ℕ) : ∀ (js : List ℕ) (p : Pt),
    loop (fun j (p : Pt) => do
      let np ← Chk.combSelect s i j
      let l5 ← subU 5 1
      if i ≠ 18 - 1 ∨ j ≠ 0 then Chk.add_niels_to_extended p np (j == l5 && i != 0) else Chk.to_extended np) js p = combInner s i js p
  | [], _ => rfl
  | j :: js, p => by
    rw [loop, combInner, Chk.combSelect_eq]
    cases Ed448.combSelect s i j with
    | error e => simp only [error_bind]
    | ok np =>
      rw [bind_ok', bind_ok', subU_ok (by norm_num), bind_ok']
      by_cases h : i ≠ 17 ∨ j ≠ 0
      · rw [if_pos h, if_pos h, Chk.add_niels_to_extended_eq, bind_ok']
        exact comb_inner s i js _
      · rw [if_neg h, if_neg h, Chk.to_extended_eq, bind_ok']
        exact comb_inner s i js _

theorem comb_outer (s : List W32) : ∀ (n : ℕ) (p : Pt),
    forRev n p (fun i p => do
      let l ← subU 18 1
      let p ← (if i ≠ l then Chk.double_internal p false else pure p)
      forTo 5 p fun j p => do
        let np ← Chk.combSelect s i j
        let l5 ← subU 5 1
        if i ≠ l ∨ j ≠ 0 then Chk.add_niels_to_extended p np (j == l5 && i != 0) else Chk.to_extended np) = combOuter s n p
  | 0, _ => rfl
  | n + 1, p => by
    rw [forRev, List.range_succ, List.reverse_append, List.reverse_singleton, List.singleton_append, loop, combOuter, subU_ok (by norm_num), bind_ok']
    have e : (if n ≠ 18 - 1 then Chk.double_internal p false else pure p) = .ok (if n ≠ 17 then p.double_internal false else p) := by
      rw [Chk.double_internal_eq, pure_ok]
      split <;> rfl
    rw [e, bind_ok', forTo]
    erw [comb_inner]
    congr 1
    funext p'
    exact comb_outer s n p'

/-- The comb multiplication: every bit position is inside the scalar, every index inside the table. -/
theorem Chk.precomputed_scalar_mul_eq (s : Scalar) : Chk.precomputed_scalar_mul s.1 = Ed448.precomputed_scalar_mul s := by
  rw [Chk.precomputed_scalar_mul, Chk.add_eq, bind_ok', Chk.halve_eq, bind_ok']
  exact comb_outer _ 18 Pt.zero

end Ed448
