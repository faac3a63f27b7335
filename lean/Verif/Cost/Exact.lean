import Verif.Cost.Verify
import Verif.Math.Digits
import Verif.Eddsa.Verify

/-!
# The exact cost of verification
-/

set_option exponentiation.threshold 1000

namespace Ed448.Cost

/-- The digits of a recoded scalar as positions and values. -/
def pairs (L : List SmvtControl) : List (ℕ × ℤ) := L.map fun x => (x.power.toNat, x.addend)

theorem pairs_sum (L : List SmvtControl) : digitsSum (pairs L) = digitsVal L := by
  induction L with
  | nil => rfl
  | cons x L ih =>
    rw [digitsVal, ← ih, pairs, digitsSum, List.map_cons, List.map_cons, List.sum_cons]
    rfl

theorem pairs_digits {tb V : ℕ} {ctl L : List SmvtControl} (h : Recoded tb V ctl L) : SignedDigits (tb + 1) V (pairs L) := by
  refine ⟨?_, ?_, ?_, by rw [pairs_sum, h.val]⟩
  · intro d hd
    obtain ⟨x, hx, rfl⟩ := List.mem_map.mp hd
    exact (h.good.digit x hx).1
  · intro d hd
    obtain ⟨x, hx, rfl⟩ := List.mem_map.mp hd
    obtain ⟨-, h1, h2, -⟩ := h.good.digit x hx
    exact abs_lt.mpr ⟨h1, h2⟩
  · rw [pairs, List.pairwise_map]
    refine (h.good.spaced.imp_of_mem fun ha hb hab => ?_)
    have h1 := (h.good.digit _ ha).2.2.2
    have h2 := (h.good.digit _ hb).2.2.2
    dsimp only
    omega

theorem first_var_exact {v0 p0 : SmvtControl} (l : List PNiels) (h : p0.power < v0.power) : Exact (firstDigits v0 p0 l) 4 [] := by
  rw [firstDigits, if_pos h]
  refine (Exact.free _).then (k' := 4) (fun e => ?_) rfl rfl
  exact (Exact.of_eq (to_extended_point_eq e)).then (fun _ => Exact.pure _) rfl rfl

theorem first_both_exact {v0 p0 : SmvtControl} (l : List PNiels) (h : v0.power = p0.power) (h0 : 0 ≤ v0.power) :
    Exact (firstDigits v0 p0 l) (4 + cond (v0.power != 0) 6 7) [] := by
  rw [firstDigits, if_neg (by omega), if_pos ⟨h, h0⟩]
  refine (Exact.free _).then (k' := 4 + cond (v0.power != 0) 6 7) (fun e => ?_) (by omega) rfl
  refine (Exact.of_eq (to_extended_point_eq e)).then (k' := cond (v0.power != 0) 6 7) (fun out => ?_) rfl rfl
  refine (Exact.free _).then (k' := cond (v0.power != 0) 6 7) (fun f => ?_) (by omega) rfl
  exact (add_niels_exact _ _ _).then (fun _ => Exact.pure _) rfl rfl

theorem first_pre_exact {v0 p0 : SmvtControl} (l : List PNiels) (h : v0.power ≤ p0.power) (h0 : v0.power = p0.power → v0.power < 0) :
    Exact (firstDigits v0 p0 l) 1 [] := by
  rw [firstDigits, if_neg (by omega), if_neg (by omega)]
  refine (Exact.free _).then (k' := 1) (fun e => ?_) rfl rfl
  exact (Exact.of_eq (to_extended_eq e)).then (fun _ => Exact.pure _) rfl rfl

theorem double_scalarmul_exact (p : Pt) (sp sv : Scalar) (hsp : sp.val ≤ 2 ^ 446) (hsv : sv.val ≤ 2 ^ 446) {V P : List (ℕ × ℤ)}
    (hV : SignedDigits 4 sv.val V) (hP : SignedDigits 6 sp.val P) :
    Exact (point_double_scalamul_non_secret p sp sv) (73 + doubleMults V P) [] := by
  obtain ⟨cp, Lp, p1, p2⟩ := recode_wnaf_spec (tb := 5) (by norm_num) (List.replicate 77 ⟨0, 0⟩) (by simp) sp hsp
  obtain ⟨cv, Lv, v1, v2⟩ := recode_wnaf_spec (tb := 3) (by norm_num) (List.replicate 115 ⟨0, 0⟩) (by simp) sv hsv
  obtain ⟨rp, hrp⟩ := p2.ctl
  obtain ⟨rv, hrv⟩ := v2.ctl
  rw [hV.unique (pairs_digits v2), hP.unique (pairs_digits p2)]
  rw [point_double_scalamul_non_secret, p1, v1, free_ok_bind, free_ok_bind]
  refine (prepare_wnaf_exact p).then (k' := doubleMults (pairs Lv) (pairs Lp)) (fun l => ?_) rfl rfl
  have hnil : ∀ tb, GoodDigits tb [] := fun tb => ⟨fun x hx => absurd hx (by simp), List.Pairwise.nil⟩
  have fin : ∀ (v0 p0 : SmvtControl) (k c0 contv contp : ℕ) (Rv Rp : List SmvtControl),
      Exact (firstDigits v0 p0 l) c0 [] → (∀ r, (firstDigits v0 p0 l).result = .ok r → r.2 = ((k : ℤ), contv, contp)) →
      cv.drop contv = Rv ++ ⟨-1, 0⟩ :: rv → cp.drop contp = Rp ++ ⟨-1, 0⟩ :: rp →
      GoodDigits 3 Rv → GoodDigits 5 Rp → (∀ x ∈ Rv, x.power < (k : ℤ)) → (∀ x ∈ Rp, x.power < (k : ℤ)) →
      c0 + (7 * k + 8 * Rv.length + 7 * Rp.length + if k = 0 then 0 else 1) = doubleMults (pairs Lv) (pairs Lp) →
      Exact (firstDigits v0 p0 l >>= fun r => if r.2.1 < 0 then pure Pt.identity
        else doubleScalarLoop cv cp l r.2.1.toNat r.2.2.1 r.2.2.2 r.1) (doubleMults (pairs Lv) (pairs Lp)) [] := by
    intro v0 p0 k c0 contv contp Rv Rp a1 a1' a2 a3 a4 a5 a6 a7 a8
    rw [← a8]
    refine Exact.bind (h' := []) a1 fun r hr => ?_
    rw [a1' r hr]
    dsimp only
    rw [if_neg (by omega), Int.toNat_natCast]
    exact dsLoop_exact cv cp rv rp l k contv contp r.1 Rv Rp a2 a3 a4 a5 a6 a7
  rcases head_eq hrv with ⟨ev, iv⟩ | ⟨xv, xsv, ev, iv, dv⟩ <;> rcases head_eq hrp with ⟨ep, ip⟩ | ⟨xp, xsp, ep, ip, dp⟩ <;>
    rw [iv, ip, free_ok_bind, free_ok_bind]
  · have h1 := first_pre_exact (v0 := ⟨-1, 0⟩) (p0 := ⟨-1, 0⟩) l (le_refl _) (fun _ => by norm_num)
    have h2 := (first_pre (v0 := ⟨-1, 0⟩) (p0 := ⟨-1, 0⟩) l (le_refl _) (fun _ => by norm_num)).2
    rw [show doubleMults (pairs Lv) (pairs Lp) = 1 + 0 by rw [ev, ep]; rfl]
    refine Exact.bind (h' := []) h1 fun r hr => ?_
    rw [h2 r hr]
    exact Exact.pure _
  · obtain ⟨n, n1, n2, -, -, n5, n6, -⟩ := p2.first ep
    have hfe := first_pre_exact (v0 := ⟨-1, 0⟩) (p0 := xp) l (by dsimp only; omega) (by dsimp only; omega)
    have hfs := (first_pre (v0 := ⟨-1, 0⟩) (p0 := xp) l (by dsimp only; omega) (by dsimp only; omega)).2
    rw [n1] at hfs
    refine fin _ _ n 1 0 1 [] xsp hfe hfs (by rw [List.drop_zero, hrv, ev]) dp (hnil 3) n5 (fun x hx => absurd hx (by simp)) n6 ?_
    rw [ev, ep, pairs, pairs, List.map_nil, List.map_cons, doubleMults, n1, Int.toNat_natCast, List.length_nil, List.length_map]
    dsimp only
    omega
  · obtain ⟨n, n1, n2, -, -, n5, n6, -⟩ := v2.first ev
    have hfe := first_var_exact (v0 := xv) (p0 := ⟨-1, 0⟩) l (by dsimp only; omega)
    have hfs := (first_var (v0 := xv) (p0 := ⟨-1, 0⟩) l (by dsimp only; omega)).2
    rw [n1] at hfs
    refine fin _ _ n 4 1 0 xsv [] hfe hfs dv (by rw [List.drop_zero, hrp, ep]) n5 (hnil 5) n6 (fun x hx => absurd hx (by simp)) ?_
    rw [ev, ep, pairs, pairs, List.map_nil, List.map_cons, doubleMults, n1, Int.toNat_natCast, List.length_nil, List.length_map]
    dsimp only
    omega
  · obtain ⟨n, n1, n2, -, -, n5, n6, -⟩ := v2.first ev
    obtain ⟨m, m1, m2, -, -, m5, m6, -⟩ := p2.first ep
    have hcost : doubleMults (pairs Lv) (pairs Lp) = if n < m then 1 + 7 * m + 8 * (xsv.length + 1) + 7 * xsp.length + 1
        else if n = m then 11 + 7 * n + 8 * xsv.length + 7 * xsp.length else 4 + 7 * n + 8 * xsv.length + 7 * (xsp.length + 1) + 1 := by
      rw [ev, ep, pairs, pairs, List.map_cons, List.map_cons, doubleMults, n1, m1, Int.toNat_natCast, Int.toNat_natCast, List.length_cons,
        List.length_cons, List.length_map, List.length_map]
    rcases lt_trichotomy n m with hlt | heq | hgt
    · have hfe := first_pre_exact (v0 := xv) (p0 := xp) l (by omega) (by omega)
      have hfs := (first_pre (v0 := xv) (p0 := xp) l (by omega) (by omega)).2
      rw [m1] at hfs
      refine fin _ _ m 1 0 1 (xv :: xsv) xsp hfe hfs (by rw [List.drop_zero, hrv, ev]) dp (ev ▸ v2.good) m5 ?_ m6 ?_
      · intro x hx
        rcases List.mem_cons.mp hx with rfl | hx
        · omega
        · have := n6 x hx
          omega
      · rw [hcost, if_pos hlt, if_neg (show ¬ m = 0 by omega), List.length_cons]
        omega
    · have hfe := first_both_exact (v0 := xv) (p0 := xp) l (by omega) (by omega)
      have hfs := (first_both (v0 := xv) (p0 := xp) l (by omega) (by omega)).2
      rw [n1] at hfs hfe
      refine fin _ _ n _ 1 1 xsv xsp hfe hfs dv dp n5 m5 n6 (by rw [heq]; exact m6) ?_
      rw [hcost, if_neg (show ¬ n < m by omega), if_pos heq]
      by_cases h0 : n = 0
      · subst h0
        rw [if_pos rfl]
        show 4 + 7 + _ = _
        omega
      · rw [if_neg h0, show (((n : ℕ) : ℤ) != 0) = true from bne_iff_ne.mpr (by omega)]
        show 4 + 6 + _ = _
        omega
    · have hfe := first_var_exact (v0 := xv) (p0 := xp) l (by omega)
      have hfs := (first_var (v0 := xv) (p0 := xp) l (by omega)).2
      rw [n1] at hfs
      refine fin _ _ n 4 1 0 xsv (xp :: xsp) hfe hfs dv (by rw [List.drop_zero, hrp, ep]) n5 (ep ▸ p2.good) n6 ?_ ?_
      · intro x hx
        rcases List.mem_cons.mp hx with rfl | hx
        · omega
        · have := m6 x hx
          omega
      · rw [hcost, if_neg (show ¬ n < m by omega), if_neg (show ¬ n = m by omega), if_neg (show ¬ n = 0 by omega), List.length_cons]
        omega

/-- The number whose digits are used for the public key: minus the challenge. -/
theorem minus_val (b : List Byte) : (scalarSub SCALAR_ZERO (decode_long b)).val = (q - leNat b % q) % q := by
  have hz : SCALAR_ZERO.val < q := by rw [SCALAR_ZERO_val]; exact q_pos
  have hlt : (decode_long b).val < q := by rw [decode_long_val]; exact Nat.mod_lt _ q_pos
  rw [scalarSub_val _ _ hz hlt, SCALAR_ZERO_val, decode_long_val]
  congr 1
  omega

theorem verifyPoints_exact {xof : Xof} {p p2 r : Pt} {sig1 sig2 : Arr Byte 57} {m : List Byte} {x : Pt × Pt} {c : ℕ}
    (hc : ∀ a, (eddsa_like_encode p).result = .ok a → leNat (Ed448.hash_with_dom xof (sig1.1 ++ a.1 ++ m) 114).1 = c)
    {V P : List (ℕ × ℤ)} (hV : SignedDigits 4 ((q - c % q) % q : ℕ) V) (hP : SignedDigits 6 (leNat sig2.1 % q : ℕ) P)
    (h : (verifyPoints xof p p2 r sig1 sig2 m).result = .ok x) :
    (verifyPoints xof p p2 r sig1 sig2 m).mults = 4609 + doubleMults V P := by
  rw [verifyPoints] at h ⊢
  obtain ⟨r', a1, h, a2, -⟩ := bind_cost h
  obtain ⟨a, b1, h, b2, -⟩ := bind_cost h
  obtain ⟨d, c1, h, c2, -⟩ := bind_cost h
  obtain ⟨k, d1, h, d2, -⟩ := bind_cost h
  obtain ⟨e1, -⟩ := (point_scalar_mul_exact _ _).eq r' a1
  obtain ⟨f1, -⟩ := (encode_exact _).eq a b1
  obtain ⟨g1, -⟩ := (hash_exact xof (sig1.1 ++ a.1 ++ m) 114 (124 + m.length)
    (by rw [List.length_append, List.length_append, sig1.2, a.2]; omega)).eq d c1
  have hd : leNat d.1 = c := by
    rw [← hc a b1]
    cases c1
    rfl
  have hlt : ∀ b, (decode_long b).val < q := fun b => by rw [decode_long_val]; exact Nat.mod_lt _ q_pos
  have hv : (scalarSub SCALAR_ZERO (decode_long d.1)).val = (q - c % q) % q := by rw [minus_val, hd]
  have i1 := ((double_scalarmul_exact p2 (decode_long sig2.1) (scalarSub SCALAR_ZERO (decode_long d.1)) (le_of_lt (lt_trans (hlt _) q_lt))
    (by rw [hv]; exact le_of_lt (lt_trans (Nat.mod_lt _ q_pos) q_lt)) (V := V) (P := P) (by rw [hv]; exact hV)
    (by rw [decode_long_val]; exact hP)).eq k d1).1
  rw [a2, b2, c2, d2, e1, f1, g1, i1, pure_mults]
  omega

end Ed448.Cost
