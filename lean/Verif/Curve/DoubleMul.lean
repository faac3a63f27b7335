import Verif.Curve.Recode
import Verif.Curve.Window

/-!
# Multiplication of two points with two scalars
-/

set_option exponentiation.threshold 1000

namespace Ed448

theorem asUsize_odd {a : ℤ} (h0 : 0 < a) (h1 : a < 2 ^ 6) (h2 : a % 2 = 1) : (2 : ℤ) * (Nat.cast (asUsize a >>> 1) : ℤ) + 1 = a := by
  have e : ((asUsize a : ℕ) : ℤ) = a := toNat_ofInt64 a h0.le (lt_trans h1 (by norm_num))
  rw [Nat.shiftRight_eq_div_pow]
  omega

/-- The next entry of a recoded scalar at position `k`. -/
theorem next_digit {tb : ℕ} {control R rest : List SmvtControl} {c k : ℕ} (hd : control.drop c = R ++ ⟨-1, 0⟩ :: rest) (hg : GoodDigits tb R)
    (hb : ∀ x ∈ R, x.power < (k : ℤ) + 1) : ∃ (ev : SmvtControl) (R' : List SmvtControl) (d : ℤ), idx control c = .ok ev ∧
      control.drop (cond ((k : ℤ) == ev.power) (c + 1) c) = R' ++ ⟨-1, 0⟩ :: rest ∧ GoodDigits tb R' ∧ (∀ x ∈ R', x.power < (k : ℤ)) ∧
      digitsVal R = d * 2 ^ k + digitsVal R' ∧
      (((k : ℤ) == ev.power) = true → d = ev.addend ∧ ev.addend % 2 = 1 ∧ -2 ^ (tb + 1) < ev.addend ∧ ev.addend < 2 ^ (tb + 1)) ∧
      (((k : ℤ) == ev.power) = false → d = 0) := by
  have hidx : ∀ x xs, control.drop c = x :: xs → idx control c = .ok x ∧ control.drop (c + 1) = xs := by
    intro x xs h
    have h1 : control[c]? = some x := by
      have := congrArg (fun l => l[0]?) h
      simpa using this
    constructor
    · rw [idx, h1]
    · rw [← List.tail_drop, h]
      rfl
  match R, hd, hg, hb with
  | [], hd, hg, hb =>
    obtain ⟨h1, h2⟩ := hidx _ _ hd
    have hf : ((k : ℤ) == (⟨-1, 0⟩ : SmvtControl).power) = false := by
      rw [beq_eq_false_iff_ne]
      show (k : ℤ) ≠ -1
      omega
    exact ⟨_, [], 0, h1, by rw [hf]; exact hd, hg, fun x hx => absurd hx (by simp), by simp [digitsVal], fun h => absurd h (by rw [hf]; simp),
      fun _ => rfl⟩
  | x :: xs, hd, hg, hb =>
    obtain ⟨h1, h2⟩ := hidx _ _ hd
    obtain ⟨g1, g2, g3, g4⟩ := hg.digit x (by simp)
    have hs := hg.spaced
    rw [List.pairwise_cons] at hs
    by_cases hk : (k : ℤ) = x.power
    · have hf : ((k : ℤ) == x.power) = true := by rw [beq_iff_eq]; exact hk
      refine ⟨x, xs, x.addend, h1, by rw [hf]; exact h2, ⟨fun y hy => hg.digit y (by simp [hy]), hs.2⟩, ?_, ?_, fun _ => ⟨rfl, g1, g2, g3⟩,
        fun h => absurd h (by rw [hf]; simp)⟩
      · intro y hy
        have := hs.1 y hy
        omega
      · rw [digitsVal, ← hk, Int.toNat_natCast]
    · have hf : ((k : ℤ) == x.power) = false := by rw [beq_eq_false_iff_ne]; exact hk
      have hx := hb x (by simp)
      refine ⟨x, x :: xs, 0, h1, by rw [hf]; exact hd, hg, ?_, by simp, fun h => absurd h (by rw [hf]; simp), fun _ => rfl⟩
      intro y hy
      rcases List.mem_cons.mp hy with rfl | hy
      · omega
      · have := hs.1 y hy
        omega

variable {G : Type} [AddCommGroup G] (S : RepSys G)

theorem wnafTableLoop_eq (pn : PNiels) : ∀ (k : ℕ) (p : Pt), wnafTableLoop pn k p = fixedWindowLoop pn k p
  | 0, _ => rfl
  | k + 1, p => by
    rw [wnafTableLoop, fixedWindowLoop]
    simp only [wnafTableLoop_eq pn k]

attribute [local irreducible] fixedWindowLoop Pt.to_projected_niels Pt.double_internal wnafTableLoop

theorem RepSys.wnafTable {P : Pt} {A : G} (h : S.repT P A) : ∃ l, decaf_prepare_wnaf_table P = .ok l ∧ l.length = 8 ∧ S.Odds l A := by
  have h1 := (S.dbl false (S.weak h)).2 rfl
  obtain ⟨d0, h2, h3⟩ := S.toP h
  obtain ⟨tw, h4, h5⟩ := S.toP h1
  have h6 := (S.addP false h1 h3).2 rfl
  have e3 : A + A + A = (2 * 1 + 1 : ℤ) • A := by
    rw [show (2 * 1 + 1 : ℤ) = 1 + 1 + 1 by norm_num, add_smul, add_smul, one_smul]
  rw [e3] at h6
  obtain ⟨d1, h7, h8⟩ := S.toP h6
  obtain ⟨l, h9, h10, h11⟩ := S.fixedWindow (pn := tw) (A := A) (by rw [two_zsmul]; exact h5) 6 _ 1 h6
  refine ⟨d0 :: d1 :: l, ?_, by simp [h10], ?_⟩
  · unfold decaf_prepare_wnaf_table
    dsimp only
    rw [h2, bind_ok, h4, bind_ok, h7, bind_ok, wnafTableLoop_eq, h9, bind_ok]
    rfl
  · intro i hi
    match i, hi with
    | 0, _ => simpa using h3
    | 1, _ => simpa using h8
    | i + 2, hi =>
      have := h11 i (by simpa using hi)
      rw [List.getElem_cons_succ, List.getElem_cons_succ, show ((i + 2 : ℕ) : ℤ) = 1 + 1 + i by push_cast; ring]
      exact this

theorem RepSys.addVar {l : List PNiels} {A : G} (hl : l.length = 8) (ho : S.Odds l A) (i : ℤ) (ev : SmvtControl) (cp : Bool) {out : Pt} {X : G}
    (hX : S.repT out X) (h1 : ev.addend % 2 = 1) (h2 : -2 ^ (3 + 1) < ev.addend) (h3 : ev.addend < 2 ^ (3 + 1)) :
    ∃ out', Ed448.addVar l i ev cp out = .ok out' ∧ S.rep out' (X + ev.addend • A) ∧
      ((i != 0 && !cp) = false → S.repT out' (X + ev.addend • A)) := by
  unfold Ed448.addVar
  by_cases h0 : ev.addend > 0
  · rw [if_pos h0]
    have e := asUsize_odd h0 (by norm_num at *; omega) h1
    have hi : asUsize ev.addend >>> 1 < l.length := by rw [hl]; generalize asUsize ev.addend >>> 1 = j at *; norm_num at *; omega
    rw [idx_ok hi, bind_ok]
    have hn := ho _ hi
    rw [e] at hn
    exact ⟨_, rfl, (S.addP _ hX hn).1, (S.addP _ hX hn).2⟩
  · rw [if_neg h0]
    have e := asUsize_odd (a := -ev.addend) (by omega) (by norm_num at *; omega) (by omega)
    have hi : asUsize (-ev.addend) >>> 1 < l.length := by rw [hl]; generalize asUsize (-ev.addend) >>> 1 = j at *; norm_num at *; omega
    rw [idx_ok hi, bind_ok]
    have hn := ho _ hi
    rw [e] at hn
    have hs := S.subP (i != 0 && !cp) hX hn
    rw [neg_smul, sub_neg_eq_add] at hs
    exact ⟨_, rfl, hs.1, hs.2⟩

theorem RepSys.tableInt (k : ℕ) (h : k < DECAF_WNAF_TABLE.length) : S.nn DECAF_WNAF_TABLE[k] ((2 * (k : ℤ) + 1) • S.base) := by
  have := S.table k h
  rw [← natCast_zsmul] at this
  push_cast at this
  exact this

theorem RepSys.addPre (i : ℤ) (ep : SmvtControl) {out : Pt} {X : G}
    (hX : S.repT out X) (h1 : ep.addend % 2 = 1) (h2 : -2 ^ (5 + 1) < ep.addend) (h3 : ep.addend < 2 ^ (5 + 1)) :
    ∃ out', Ed448.addPre i ep out = .ok out' ∧ S.rep out' (X + ep.addend • S.base) := by
  unfold Ed448.addPre
  by_cases h0 : ep.addend > 0
  · rw [if_pos h0]
    have e := asUsize_odd h0 h3 h1
    have hi : asUsize ep.addend >>> 1 < DECAF_WNAF_TABLE.length := by rw [wnaf_table_length]; generalize asUsize ep.addend >>> 1 = j at *; norm_num at *; omega
    rw [idx_ok hi, bind_ok]
    have hn := S.tableInt _ hi
    rw [e] at hn
    exact ⟨_, rfl, (S.addN _ hX hn).1⟩
  · rw [if_neg h0]
    have e := asUsize_odd (a := -ep.addend) (by omega) (by norm_num at *; omega) (by omega)
    have hi : asUsize (-ep.addend) >>> 1 < DECAF_WNAF_TABLE.length := by rw [wnaf_table_length]; generalize asUsize (-ep.addend) >>> 1 = j at *; norm_num at *; omega
    rw [idx_ok hi, bind_ok]
    have hn := S.tableInt _ hi
    rw [e] at hn
    have hs := S.subN (i != 0) hX hn
    rw [neg_smul, sub_neg_eq_add] at hs
    exact ⟨_, rfl, hs.1⟩

theorem RepSys.dsLoop {l : List PNiels} {A : G} (hl : l.length = 8) (ho : S.Odds l A) (control_var control_pre rv rp : List SmvtControl) :
    ∀ (k contv contp : ℕ) (out : Pt) (Rv Rp : List SmvtControl) (Hv Hp : ℤ),
      control_var.drop contv = Rv ++ ⟨-1, 0⟩ :: rv → control_pre.drop contp = Rp ++ ⟨-1, 0⟩ :: rp →
      GoodDigits 3 Rv → GoodDigits 5 Rp → (∀ x ∈ Rv, x.power < (k : ℤ)) → (∀ x ∈ Rp, x.power < (k : ℤ)) →
      S.rep out (Hv • A + Hp • S.base) →
      ∃ out', doubleScalarLoop control_var control_pre l k contv contp out = .ok out' ∧
        S.rep out' ((2 ^ k * Hv + digitsVal Rv) • A + (2 ^ k * Hp + digitsVal Rp) • S.base)
  | 0, contv, contp, out, Rv, Rp, Hv, Hp, hv, hp, gv, gp, bv, bp, hr => by
    have ev : Rv = [] := by
      rcases Rv with _ | ⟨x, xs⟩
      · rfl
      · have := bv x (by simp)
        have := (gv.digit x (by simp)).2.2.2
        push_cast at *
        omega
    have ep : Rp = [] := by
      rcases Rp with _ | ⟨x, xs⟩
      · rfl
      · have := bp x (by simp)
        have := (gp.digit x (by simp)).2.2.2
        push_cast at *
        omega
    subst ev ep
    refine ⟨out, rfl, ?_⟩
    simpa [digitsVal] using hr
  | k + 1, contv, contp, out, Rv, Rp, Hv, Hp, hv, hp, gv, gp, bv, bp, hr => by
    obtain ⟨ev, Rv', dv, v1, v2, v3, v4, v5, v6, v7⟩ := next_digit (k := k) hv gv (by simpa using bv)
    obtain ⟨ep, Rp', dp, p1, p2, p3, p4, p5, p6, p7⟩ := next_digit (k := k) hp gp (by simpa using bp)
    generalize hcv : ((k : ℤ) == ev.power) = cv at v2 v6 v7
    generalize hcp : ((k : ℤ) == ep.power) = cp at p2 p6 p7
    have hdb := S.dbl ((k : ℤ) != 0 && !(cv || cp)) hr
    -- the digit of the variable scalar
    obtain ⟨o1, a1, a2, a3⟩ : ∃ o1, cond cv (Ed448.addVar l k ev cp (out.double_internal ((k : ℤ) != 0 && !(cv || cp))))
        (pure (out.double_internal ((k : ℤ) != 0 && !(cv || cp)))) = .ok o1 ∧
        S.rep o1 (Hv • A + Hp • S.base + (Hv • A + Hp • S.base) + dv • A) ∧
        (cp = true → S.repT o1 (Hv • A + Hp • S.base + (Hv • A + Hp • S.base) + dv • A)) := by
      cases cv
      · refine ⟨_, rfl, ?_⟩
        rw [v7 rfl, zero_smul, add_zero]
        refine ⟨hdb.1, ?_⟩
        rintro rfl
        exact hdb.2 (by simp)
      · obtain ⟨w1, w2, w3, w4⟩ := v6 rfl
        obtain ⟨o1, x1, x2, x3⟩ := S.addVar hl ho k ev cp (hdb.2 (by simp)) w2 w3 w4
        refine ⟨o1, x1, by rw [w1]; exact x2, ?_⟩
        rintro rfl
        rw [w1]
        exact x3 (by simp)
    obtain ⟨o2, b1, b2⟩ : ∃ o2, cond cp (Ed448.addPre k ep o1) (pure o1) = .ok o2 ∧
        S.rep o2 (Hv • A + Hp • S.base + (Hv • A + Hp • S.base) + dv • A + dp • S.base) := by
      cases cp
      · refine ⟨o1, rfl, ?_⟩
        rw [p7 rfl, zero_smul, add_zero]
        exact a2
      · obtain ⟨w1, w2, w3, w4⟩ := p6 rfl
        obtain ⟨o2, x1, x2⟩ := S.addPre k ep (a3 rfl) w2 w3 w4
        exact ⟨o2, x1, by rw [w1]; exact x2⟩
    have e : Hv • A + Hp • S.base + (Hv • A + Hp • S.base) + dv • A + dp • S.base = (2 * Hv + dv) • A + (2 * Hp + dp) • S.base := by
      rw [add_smul, add_smul, mul_smul, mul_smul, two_zsmul, two_zsmul]
      abel
    rw [e] at b2
    obtain ⟨o3, c1, c2⟩ := RepSys.dsLoop hl ho control_var control_pre rv rp k _ _ o2 Rv' Rp' (2 * Hv + dv) (2 * Hp + dp) v2 p2 v3 p3 v4 p4 b2
    refine ⟨o3, ?_, ?_⟩
    · rw [doubleScalarLoop, v1, bind_ok, p1, bind_ok]
      dsimp only
      rw [hcv, hcp, a1, bind_ok, b1, bind_ok]
      exact c1
    · rw [v5, p5]
      convert c2 using 3
      · ring
      · ring

theorem head_eq {control R rest : List SmvtControl} (h : control = R ++ ⟨-1, 0⟩ :: rest) :
    (R = [] ∧ idx control 0 = .ok ⟨-1, 0⟩) ∨ ∃ x xs, R = x :: xs ∧ idx control 0 = .ok x ∧ control.drop 1 = xs ++ ⟨-1, 0⟩ :: rest := by
  subst h
  rcases R with _ | ⟨x, xs⟩
  · exact Or.inl ⟨rfl, rfl⟩
  · exact Or.inr ⟨x, xs, rfl, rfl, rfl⟩

/-- What is known about the first digit. -/
theorem Recoded.first {tb V : ℕ} {control x0} {L : List SmvtControl} {xs : List SmvtControl} (h : Recoded tb V control L) (he : L = x0 :: xs) :
    ∃ n : ℕ, x0.power = n ∧ 0 < x0.addend ∧ x0.addend % 2 = 1 ∧ x0.addend < 2 ^ (tb + 1) ∧ GoodDigits tb xs ∧ (∀ x ∈ xs, x.power < (n : ℤ)) ∧
      (V : ℤ) = 2 ^ n * x0.addend + digitsVal xs := by
  subst he
  obtain ⟨g1, g2, g3, g4⟩ := h.good.digit x0 (by simp)
  have hs := h.good.spaced
  rw [List.pairwise_cons] at hs
  refine ⟨x0.power.toNat, by omega, h.top x0 (by simp), g1, g3, ⟨fun y hy => h.good.digit y (by simp [hy]), hs.2⟩, ?_, ?_⟩
  · intro y hy
    have := hs.1 y hy
    omega
  · rw [← h.val, digitsVal]
    ring

theorem half_index {a : ℤ} (h0 : 0 < a) (h1 : a < 2 ^ 6) (h2 : a % 2 = 1) : (2 : ℤ) * (Nat.cast (asUsize (a / 2)) : ℤ) + 1 = a := by
  have e : ((asUsize (a / 2) : ℕ) : ℤ) = a / 2 := toNat_ofInt64 _ (by omega) (by norm_num at *; omega)
  omega

attribute [local irreducible] doubleScalarLoop decaf_prepare_wnaf_table recode_wnaf

theorem RepSys.double_mul {P : Pt} {A : G} (h : S.repT P A) (sp sv : Scalar) (hsp : sp.val ≤ 2 ^ 446) (hsv : sv.val ≤ 2 ^ 446) :
    ∃ P', P.point_double_scalamul_non_secret sp sv = .ok P' ∧ S.rep P' ((sv.val : ℤ) • A + (sp.val : ℤ) • S.base) := by
  obtain ⟨cp, Lp, p1, p2⟩ := recode_wnaf_spec (tb := 5) (by norm_num) (List.replicate 77 ⟨0, 0⟩) (by simp) sp hsp
  obtain ⟨cv, Lv, v1, v2⟩ := recode_wnaf_spec (tb := 3) (by norm_num) (List.replicate 115 ⟨0, 0⟩) (by simp) sv hsv
  obtain ⟨l, l1, l2, l3⟩ := S.wnafTable h
  obtain ⟨rp, hrp⟩ := p2.ctl
  obtain ⟨rv, hrv⟩ := v2.ctl
  -- it is enough to know the first digits and the state after them
  have fin : ∀ (v0 p0 : SmvtControl) (out : Pt) (k contv contp : ℕ) (Rv Rp : List SmvtControl) (Hv Hp : ℤ),
      idx cv 0 = .ok v0 → idx cp 0 = .ok p0 → firstDigits v0 p0 l = .ok (out, (k : ℤ), contv, contp) →
      cv.drop contv = Rv ++ ⟨-1, 0⟩ :: rv → cp.drop contp = Rp ++ ⟨-1, 0⟩ :: rp →
      GoodDigits 3 Rv → GoodDigits 5 Rp → (∀ x ∈ Rv, x.power < (k : ℤ)) → (∀ x ∈ Rp, x.power < (k : ℤ)) →
      S.rep out (Hv • A + Hp • S.base) → (sv.val : ℤ) = 2 ^ k * Hv + digitsVal Rv → (sp.val : ℤ) = 2 ^ k * Hp + digitsVal Rp →
      ∃ P', P.point_double_scalamul_non_secret sp sv = .ok P' ∧ S.rep P' ((sv.val : ℤ) • A + (sp.val : ℤ) • S.base) := by
    intro v0 p0 out k contv contp Rv Rp Hv Hp a1 a2 a3 a4 a5 a6 a7 a8 a9 a10 a11 a12
    obtain ⟨o, b1, b2⟩ := S.dsLoop l2 l3 cv cp rv rp k contv contp out Rv Rp Hv Hp a4 a5 a6 a7 a8 a9 a10
    rw [← a11, ← a12] at b2
    refine ⟨o, ?_, b2⟩
    unfold Pt.point_double_scalamul_non_secret
    rw [p1, bind_ok, v1, bind_ok, l1, bind_ok, a1, bind_ok, a2, bind_ok, a3, bind_ok]
    dsimp only
    rw [if_neg (by omega), Int.toNat_natCast]
    exact b1
  rcases head_eq hrv with ⟨ev, iv⟩ | ⟨xv, xsv, ev, iv, dv⟩ <;> rcases head_eq hrp with ⟨ep, ip⟩ | ⟨xp, xsp, ep, ip, dp⟩
  · -- both scalars are zero
    refine ⟨Pt.identity, ?_, ?_⟩
    · unfold Pt.point_double_scalamul_non_secret
      rw [p1, bind_ok, v1, bind_ok, l1, bind_ok, iv, bind_ok, ip, bind_ok]
      rfl
    · have h1 := v2.val
      have h2 := p2.val
      rw [ev, digitsVal] at h1
      rw [ep, digitsVal] at h2
      rw [← h1, ← h2, zero_smul, zero_smul, add_zero]
      exact S.weak S.ident
  · obtain ⟨n, n1, n2, n3, n4, n5, n6, n7⟩ := p2.first ep
    have e := asUsize_odd n2 n4 n3
    have hi : asUsize xp.addend >>> 1 < DECAF_WNAF_TABLE.length := by rw [wnaf_table_length]; generalize asUsize xp.addend >>> 1 = j at *; norm_num at *; omega
    have hn := S.tableInt _ hi
    rw [e] at hn
    have hv0 := v2.val
    rw [ev, digitsVal] at hv0
    refine fin _ _ _ n 0 1 [] xsp 0 xp.addend iv ip ?_ (by rw [List.drop_zero, hrv, ev]) dp ⟨fun x hx => absurd hx (by simp), List.Pairwise.nil⟩ n5
      (fun x hx => absurd hx (by simp)) n6 (by rw [zero_smul, zero_add]; exact S.weak (S.ofN hn)) (by rw [← hv0]; simp [digitsVal]) n7
    unfold firstDigits
    dsimp only
    rw [if_neg (by omega), if_neg (by omega), idx_ok hi, bind_ok, n1]
    rfl
  · obtain ⟨n, n1, n2, n3, n4, n5, n6, n7⟩ := v2.first ev
    have e := half_index n2 (by norm_num at *; omega) n3
    have hi : asUsize (xv.addend / 2) < l.length := by rw [l2]; norm_num at *; omega
    have hn := l3 _ hi
    rw [e] at hn
    have hp0 := p2.val
    rw [ep, digitsVal] at hp0
    refine fin _ _ _ n 1 0 xsv [] xv.addend 0 iv ip ?_ dv (by rw [List.drop_zero, hrp, ep]) n5 ⟨fun x hx => absurd hx (by simp), List.Pairwise.nil⟩
      n6 (fun x hx => absurd hx (by simp)) (by rw [zero_smul, add_zero]; exact S.weak (S.ofP hn)) n7 (by rw [← hp0]; simp [digitsVal])
    unfold firstDigits
    dsimp only
    rw [if_pos (by omega), idx_ok hi, bind_ok, n1]
    rfl
  · obtain ⟨n, n1, n2, n3, n4, n5, n6, n7⟩ := v2.first ev
    obtain ⟨m, m1, m2, m3, m4, m5, m6, m7⟩ := p2.first ep
    have e := half_index n2 (by norm_num at *; omega) n3
    have hi : asUsize (xv.addend / 2) < l.length := by rw [l2]; norm_num at *; omega
    have hn := l3 _ hi
    rw [e] at hn
    have e2 := asUsize_odd m2 m4 m3
    have hi2 : asUsize xp.addend >>> 1 < DECAF_WNAF_TABLE.length := by rw [wnaf_table_length]; generalize asUsize xp.addend >>> 1 = j at *; norm_num at *; omega
    have hn2 := S.tableInt _ hi2
    rw [e2] at hn2
    rcases lt_trichotomy n m with hlt | heq | hgt
    · refine fin _ _ _ m 0 1 (xv :: xsv) xsp 0 xp.addend iv ip ?_ (by rw [List.drop_zero, hrv, ev]) dp (by rw [← ev]; exact v2.good) m5
        ?_ m6 (by rw [zero_smul, zero_add]; exact S.weak (S.ofN hn2)) (by rw [← ev, v2.val]; ring) m7
      · unfold firstDigits
        dsimp only
        rw [if_neg (by omega), if_neg (by omega), idx_ok hi2, bind_ok, m1]
        rfl
      · intro x hx
        rcases List.mem_cons.mp hx with rfl | hx
        · omega
        · have := n6 x hx
          omega
    · subst heq
      refine fin _ _ _ n 1 1 xsv xsp xv.addend xp.addend iv ip ?_ dv dp n5 m5 n6 m6 (S.addN ((n : ℤ) != 0) (S.ofP hn) hn2).1 n7 m7
      unfold firstDigits
      dsimp only
      rw [if_neg (by omega), if_pos (by omega), idx_ok hi, bind_ok, idx_ok hi2, bind_ok, n1]
      rfl
    · refine fin _ _ _ n 1 0 xsv (xp :: xsp) xv.addend 0 iv ip ?_ dv (by rw [List.drop_zero, hrp, ep]) n5 (by rw [← ep]; exact p2.good)
        n6 ?_ (by rw [zero_smul, add_zero]; exact S.weak (S.ofP hn)) n7 (by rw [← ep, p2.val]; ring)
      · unfold firstDigits
        dsimp only
        rw [if_pos (by omega), idx_ok hi, bind_ok, n1]
        rfl
      · intro x hx
        rcases List.mem_cons.mp hx with rfl | hx
        · omega
        · have := m6 x hx
          omega

/-- For coordinates within bounds, on the curve or not, the double multiplication does not panic. -/
theorem double_mul_red {P : Pt} (h : P.Red) {sp sv : Scalar} (hsp : sp.val < q) (hsv : sv.val < q) :
    ∃ P', P.point_double_scalamul_non_secret sp sv = .ok P' ∧ P'.Red :=
  redSys.double_mul (A := ⟨⟩) h sp sv (lt_trans hsp q_lt).le (lt_trans hsv q_lt).le

theorem double_mul_rep {P : Pt} {A : E} (h : RepT P A) {sp sv : Scalar} (hsp : sp.val < q) (hsv : sv.val < q) :
    ∃ P', P.point_double_scalamul_non_secret sp sv = .ok P' ∧ Rep P' (sv.val • A + sp.val • B) := by
  have := curveSys.double_mul h sp sv (lt_trans hsp q_lt).le (lt_trans hsv q_lt).le
  rw [natCast_zsmul, natCast_zsmul] at this
  exact this

end Ed448
