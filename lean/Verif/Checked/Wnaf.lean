import Verif.Checked.Point

/-!
# The checked loops of src/extended_point.rs, continued: recoding and double multiplication
-/

namespace Ed448

attribute [local irreducible] Pt.double_internal Pt.add_projected_niels_to_extended Pt.to_projected_niels PNiels.to_extended_point
  TwistedNiels.to_extended Pt.add_niels_to_extended DECAF_WNAF_TABLE Pt.sub_projected_niels_from_extended_point Pt.sub_niels_from_extended_point
  Chk.double_internal Chk.add_projected_niels_to_extended Chk.to_projected_niels Chk.to_extended_point Chk.add_niels_to_extended Chk.to_extended
  Chk.sub_projected_niels_from_extended_point Chk.sub_niels_from_extended_point

/-! ## `trailing_zeroes_32` -/

theorem tz_while : ∀ (k : ℕ) (n r : W32), r.toNat + k < 2 ^ 32 →
    (do
      let (_, r) ← while' (fun st : W32 × ℕ => decide (st.1.toNat % 2 = 0)) (fun (n, r) => do
        let r ← chkU32 (r + 1)
        pure (n / 2, r)) k (n, r.toNat)
      pure r) = (tzLoop k n r >>= fun r => pure r.toNat)
  | 0, _, _, _ => rfl
  | k + 1, n, r, h => by
    rw [while', tzLoop]
    by_cases hn : n.toNat % 2 = 0
    · rw [if_pos (decide_eq_true hn), if_pos hn]
      dsimp only
      have e : r.toNat + 1 = (r + 1).toNat := by
        rw [BitVec.toNat_add, show (@OfNat.ofNat (BitVec 32) 1 BitVec.instOfNat).toNat = 1 from rfl]
        omega
      rw [chkU32_ok (by omega), bind_ok', pure_ok, bind_ok', e]
      exact tz_while k (n / 2) (r + 1) (by omega)
    · rw [if_neg (by simpa using hn), if_neg hn]
      rfl

theorem Chk.trailing_zeroes_32_eq (n : W32) : Chk.trailing_zeroes_32 n = (Ed448.trailing_zeroes_32 n >>= fun r => pure r.toNat) := by
  rw [Chk.trailing_zeroes_32, Ed448.trailing_zeroes_32]
  by_cases h : n = 0
  · rw [if_pos h, if_pos h]
    rfl
  · rw [if_neg h, if_neg h]
    exact tz_while 32 n 0 (by decide)

/-! ## `recode_wnaf` -/

theorem Chk.wnafDelta_eq {tb : ℕ} (htb : tb ≤ 5) (odd : W32) : Chk.wnafDelta tb odd = .ok (wdelta tb odd).toInt := by
  have hd := wdelta_toInt htb odd
  have h1 := and_low odd (tb + 1) (by omega)
  have h3 : odd.toNat % 2 ^ (tb + 1) < 2 ^ (tb + 1) := Nat.mod_lt _ (by positivity)
  have h4 : 2 ^ (tb + 1) ≤ 2 ^ 6 := Nat.pow_le_pow_right (by norm_num) (by omega)
  have h5 : ((@OfNat.ofNat (BitVec 32) 1 BitVec.instOfNat <<< (tb + 1))).toInt = 2 ^ (tb + 1) := by
    interval_cases tb <;> decide
  have h6 : BitVec.ofInt 32 ((@OfNat.ofNat (BitVec 32) 1 BitVec.instOfNat <<< (tb + 1)).toInt - 1) =
      (@OfNat.ofNat (BitVec 32) 1 BitVec.instOfNat <<< (tb + 1)) - (@OfNat.ofNat (BitVec 32) 1 BitVec.instOfNat) := by
    interval_cases tb <;> decide
  have h7 : (odd &&& ((@OfNat.ofNat (BitVec 32) 1 BitVec.instOfNat <<< (tb + 1)) - (@OfNat.ofNat (BitVec 32) 1 BitVec.instOfNat))).toInt =
      ((odd.toNat % 2 ^ (tb + 1) : ℕ) : ℤ) := by
    rw [BitVec.toInt_eq_toNat_of_lt (by rw [h1]; omega), h1]
  have h8 : (2 : ℤ) ^ (tb + 1) ≤ 2 ^ 6 := by exact_mod_cast h4
  have h9 : (0 : ℤ) < 2 ^ (tb + 1) := by positivity
  have h10 : ((odd.toNat % 2 ^ (tb + 1) : ℕ) : ℤ) < 2 ^ (tb + 1) := by exact_mod_cast h3
  rw [Chk.wnafDelta, shl32_ok _ (by omega), bind_ok', chkI32_ok (by rw [h5]; omega) (by rw [h5]; omega), bind_ok', h6, h7, h5, hd, wdigit]
  have h2 := and_bit odd (tb + 1) (by omega)
  by_cases hb : odd.toNat / 2 ^ (tb + 1) % 2 = 1
  · rw [if_pos hb]
    erw [if_pos (h2.2 hb)]
    exact chkI32_ok (by omega) (by omega)
  · rw [if_neg hb]
    erw [if_neg (fun h => hb (h2.1 h))]
    rfl

theorem decUsize_eq (n : ℕ) : decUsize n = subU n 1 := by
  rw [decUsize, subU]
  by_cases h : n = 0
  · rw [if_pos h, if_neg (by omega)]
  · rw [if_neg h, if_pos (by omega)]

/-- One step of the inner loop. -/
theorem wnafBody_eq {tb w fuel position : ℕ} {control : List SmvtControl} {current : W64} (htb : tb ≤ 5) (hw : w < 2 ^ 32)
    (hc : current &&& 0xffff ≠ 0) :
    wnafInner tb w (fuel + 1) control position current =
      (Chk.wnafBody tb w (control, position, current) >>= fun st => wnafInner tb w fuel st.1 st.2.1 st.2.2) := by
  have hc' := (and_ffff current).1 hc
  have hlo : (lo32 current).toNat ≠ 0 := by
    rw [lo32, BitVec.toNat_setWidth]
    omega
  obtain ⟨pos, h1, h2, h3⟩ := trailing_zeroes_spec (lo32 current) hlo
  have hp : pos.toNat < 32 := by
    have := Nat.le_of_dvd (by omega) h2
    exact (Nat.pow_lt_pow_iff_right (by norm_num : 1 < 2)).1 (lt_of_le_of_lt this (lo32 current).isLt)
  rw [wnafInner, if_pos hc, Chk.wnafBody, Chk.trailing_zeroes_32_eq, h1]
  dsimp only
  rw [bind_ok', bind_ok', pure_ok, bind_ok', shr32_ok _ hp, bind_ok', Chk.wnafDelta_eq htb, bind_ok', shl32_ok _ hp, bind_ok', BitVec.ofInt_toInt]
  change (chkI64 (current.toInt - (wdelta tb (lo32 current >>> pos.toNat) <<< pos.toNat).toInt) >>= fun c =>
    setIdx control position ⟨(pos.toNat : ℤ) + 16 * ((w : ℤ) - 1), (wdelta tb (lo32 current >>> pos.toNat)).toInt⟩ >>= fun control =>
    decUsize position >>= fun position => wnafInner tb w fuel control position (BitVec.ofInt 64 c)) = _
  cases chkI64 (current.toInt - (wdelta tb (lo32 current >>> pos.toNat) <<< pos.toNat).toInt) with
  | error e => simp only [error_bind]
  | ok c =>
    rw [bind_ok', bind_ok', chkI64_ok (by omega) (by omega), bind_ok', chkI64_ok (by omega) (by omega), bind_ok', chkI64_ok (by omega) (by omega), bind_ok',
      decUsize_eq]
    cases setIdx control position ⟨(pos.toNat : ℤ) + 16 * ((w : ℤ) - 1), (wdelta tb (lo32 current >>> pos.toNat)).toInt⟩ with
    | error e => simp only [error_bind]
    | ok control =>
      rw [bind_ok', bind_ok']
      cases subU position 1 with
      | error e => simp only [error_bind]
      | ok position => simp only [bind_ok', pure_ok]

theorem wnafInner_eq {tb w : ℕ} (htb : tb ≤ 5) (hw : w < 2 ^ 32) : ∀ (fuel : ℕ) (control : List SmvtControl) (position : ℕ) (current : W64),
    while' (fun st : List SmvtControl × ℕ × W64 => decide (st.2.2 &&& 0xffff ≠ 0)) (Chk.wnafBody tb w) fuel (control, position, current) =
      wnafInner tb w fuel control position current
  | 0, _, _, _ => rfl
  | fuel + 1, control, position, current => by
    rw [while']
    by_cases hc : current &&& 0xffff ≠ 0
    · rw [if_pos (decide_eq_true hc), wnafBody_eq htb hw hc]
      congr 1
      funext st
      exact wnafInner_eq htb hw fuel _ _ _
    · rw [if_neg (by simpa using hc), wnafInner, if_neg hc]

theorem Chk.wnafAdd_eq (s : List W32) (w : ℕ) (current : W64) : Chk.wnafAdd s w current = Ed448.wnafAdd s w current := by
  rw [Chk.wnafAdd, Ed448.wnafAdd]
  by_cases hw : w < 28
  · rw [if_pos hw, if_pos hw]
    cases idx s (w / 2) with
    | error e => simp only [error_bind]
    | ok sw =>
      rw [bind_ok', bind_ok', shr32_ok _ (by omega), bind_ok', shl32_ok _ (by norm_num), bind_ok', addU64, chkU64]
      by_cases h : current.toNat + (u64 ((sw >>> (16 * (w % 2))) <<< 16)).toNat < 2 ^ 64
      · rw [if_pos h, if_pos h, bind_ok', pure_ok]
        congr 1
      · rw [if_neg h, if_neg h, error_bind]
  · rw [if_neg hw, if_neg hw]

/-- The body of the outer loop of `recode_wnaf`. -/
abbrev outerBody (tb : ℕ) (s : List W32) : ℕ → List SmvtControl × ℕ × W64 → Rust (List SmvtControl × ℕ × W64) := fun w (control, position, current) => do
  let current ← Chk.wnafAdd s w current
  let (control, position, current) ← while' (fun st : List SmvtControl × ℕ × W64 => decide (st.2.2 &&& 0xffff ≠ 0))
    (Chk.wnafBody tb w) 17 (control, position, current)
  pure (control, position, current >>> 16)

theorem wnafOuter_eq {tb : ℕ} (htb : tb ≤ 5) (s : List W32) : ∀ (ws : List ℕ), (∀ w ∈ ws, w < 2 ^ 32) →
    ∀ (control : List SmvtControl) (position : ℕ) (current : W64),
      loop (outerBody tb s) ws (control, position, current) = wnafOuter tb s ws control position current
  | [], _, _, _, _ => rfl
  | w :: ws, h, control, position, current => by
    rw [loop, wnafOuter, outerBody]
    dsimp only
    rw [Chk.wnafAdd_eq]
    cases Ed448.wnafAdd s w current with
    | error e => simp only [error_bind]
    | ok current =>
      rw [bind_ok', bind_ok', wnafInner_eq htb (h w (by simp))]
      cases wnafInner tb w 17 control position current with
      | error e => simp only [error_bind]
      | ok r =>
        rw [bind_ok', bind_ok']
        obtain ⟨c, p, cur⟩ := r
        dsimp only
        rw [pure_ok, bind_ok']
        exact wnafOuter_eq htb s ws (fun w hw => h w (by simp [hw])) _ _ _

/-- Small exponents and digits. -/
def SmallCtl (e : SmvtControl) : Prop := -2 ^ 40 ≤ e.power ∧ e.power ≤ 2 ^ 40 ∧ -2 ^ 40 ≤ e.addend ∧ e.addend ≤ 2 ^ 40

theorem setIdx_ok {α : Type} {l l' : List α} {i : ℕ} {x : α} (h : setIdx l i x = .ok l') : i < l.length ∧ l' = l.set i x := by
  rw [setIdx] at h
  by_cases hi : i < l.length
  · rw [if_pos hi] at h
    exact ⟨hi, (Except.ok.inj h).symm⟩
  · rw [if_neg hi] at h
    cases h

theorem wnafInner_small {tb w : ℕ} (hw : w < 2 ^ 32) : ∀ (fuel : ℕ) (control : List SmvtControl) (position : ℕ) (current : W64)
    (r : List SmvtControl × ℕ × W64), wnafInner tb w fuel control position current = .ok r → (∀ e ∈ control, SmallCtl e) →
      (∀ e ∈ r.1, SmallCtl e) ∧ r.2.1 ≤ position
  | 0, _, _, _, _, h, _ => by cases h
  | fuel + 1, control, position, current, r, h, hs => by
    rw [wnafInner] at h
    by_cases hc : current &&& 0xffff ≠ 0
    · rw [if_pos hc] at h
      dsimp only at h
      cases ht : Ed448.trailing_zeroes_32 (lo32 current) with
      | error e => rw [ht, error_bind] at h; cases h
      | ok pos =>
        rw [ht, bind_ok'] at h
        change (chkI64 (current.toInt - (wdelta tb (lo32 current >>> pos.toNat) <<< pos.toNat).toInt) >>= fun c =>
          setIdx control position ⟨(pos.toNat : ℤ) + 16 * ((w : ℤ) - 1), (wdelta tb (lo32 current >>> pos.toNat)).toInt⟩ >>= fun control =>
          decUsize position >>= fun position => wnafInner tb w fuel control position (BitVec.ofInt 64 c)) = _ at h
        generalize wdelta tb (lo32 current >>> pos.toNat) = d at h
        cases h1 : chkI64 (current.toInt - (d <<< pos.toNat).toInt) with
        | error e => rw [h1, error_bind] at h; cases h
        | ok c =>
          rw [h1, bind_ok'] at h
          cases h2 : setIdx control position ⟨(pos.toNat : ℤ) + 16 * ((w : ℤ) - 1), d.toInt⟩ with
          | error e => rw [h2, error_bind] at h; cases h
          | ok control' =>
            rw [h2, bind_ok'] at h
            obtain ⟨_, rfl⟩ := setIdx_ok h2
            cases h3 : decUsize position with
            | error e => rw [h3, error_bind] at h; cases h
            | ok position' =>
              rw [h3, bind_ok'] at h
              have hp' : position' ≤ position := by
                rw [decUsize] at h3
                split at h3
                · cases h3
                · have := Except.ok.inj h3
                  omega
              obtain ⟨i1, i2⟩ := wnafInner_small hw fuel _ _ _ r h (by
                intro e he
                rcases List.mem_or_eq_of_mem_set he with he | rfl
                · exact hs e he
                · have hp := pos.isLt
                  have d1 := BitVec.toInt_lt (x := d)
                  have d2 := BitVec.le_toInt (x := d)
                  norm_num at d1 d2
                  refine ⟨?_, ?_, ?_, ?_⟩ <;> dsimp only <;> omega)
              exact ⟨i1, i2.trans hp'⟩
    · rw [if_neg hc] at h
      obtain rfl := Except.ok.inj h
      exact ⟨hs, le_refl _⟩

theorem wnafOuter_small {tb : ℕ} (s : List W32) : ∀ (ws : List ℕ), (∀ w ∈ ws, w < 2 ^ 32) →
    ∀ (control : List SmvtControl) (position : ℕ) (current : W64) (r : List SmvtControl × ℕ × W64),
      wnafOuter tb s ws control position current = .ok r → (∀ e ∈ control, SmallCtl e) → (∀ e ∈ r.1, SmallCtl e) ∧ r.2.1 ≤ position
  | [], _, _, _, _, r, h, hs => by
    obtain rfl := Except.ok.inj h
    exact ⟨hs, le_refl _⟩
  | w :: ws, hw, control, position, current, r, h, hs => by
    rw [wnafOuter] at h
    cases h1 : Ed448.wnafAdd s w current with
    | error e => rw [h1, error_bind] at h; cases h
    | ok c =>
      rw [h1, bind_ok'] at h
      cases h2 : wnafInner tb w 17 control position c with
      | error e => rw [h2, error_bind] at h; cases h
      | ok r2 =>
        rw [h2, bind_ok'] at h
        obtain ⟨a1, a2⟩ := wnafInner_small (hw w (by simp)) 17 control position c r2 h2 hs
        obtain ⟨b1, b2⟩ := wnafOuter_small s ws (fun w h => hw w (by simp [h])) _ _ _ r h a1
        exact ⟨b1, b2.trans a2⟩

theorem wnafCopy_eq (position : ℕ) : ∀ (is : List ℕ) (control : List SmvtControl),
    loop (fun i control => do
      let e ← idx control (i + position)
      setIdx control i e) is control = wnafCopy position is control
  | [], _ => rfl
  | i :: is, control => by
    rw [loop, wnafCopy]
    cases idx control (i + position) with
    | error e => simp only [error_bind]
    | ok e =>
      rw [bind_ok', bind_ok']
      congr 1
      funext c
      exact wnafCopy_eq position is c

theorem wnafCopy_small (position : ℕ) : ∀ (is : List ℕ) (control r : List SmvtControl), wnafCopy position is control = .ok r →
    (∀ e ∈ control, SmallCtl e) → ∀ e ∈ r, SmallCtl e
  | [], _, _, h, hs => by
    obtain rfl := Except.ok.inj h
    exact hs
  | i :: is, control, r, h, hs => by
    rw [wnafCopy] at h
    cases h1 : idx control (i + position) with
    | error e => rw [h1, error_bind] at h; cases h
    | ok e =>
      rw [h1, bind_ok'] at h
      cases h2 : setIdx control i e with
      | error e => rw [h2, error_bind] at h; cases h
      | ok c =>
        rw [h2, bind_ok'] at h
        obtain ⟨_, rfl⟩ := setIdx_ok h2
        refine wnafCopy_small position is _ r h ?_
        intro x hx
        rcases List.mem_or_eq_of_mem_set hx with hx | rfl
        · exact hs x hx
        · rw [idx] at h1
          split at h1
          · obtain rfl := Except.ok.inj h1
            exact hs _ (List.mem_of_getElem? (by assumption))
          · cases h1

theorem set_small {control control' : List SmvtControl} {i : ℕ} (h : setIdx control i ⟨-1, 0⟩ = .ok control') (hs : ∀ e ∈ control, SmallCtl e) :
    ∀ e ∈ control', SmallCtl e := by
  obtain ⟨_, rfl⟩ := setIdx_ok h
  intro x hx
  rcases List.mem_or_eq_of_mem_set hx with hx | rfl
  · exact hs x hx
  · exact ⟨by norm_num, by norm_num, by norm_num, by norm_num⟩

/-- The recoding: every check passes (besides the array accesses that the model checks too), and the returned length is one less than the number of
entries moved to the front. -/
theorem Chk.recode_wnaf_eq {tb : ℕ} (htb : tb ≤ 5) (control : List SmvtControl) (hsm : ∀ e ∈ control, SmallCtl e) (s : Scalar) :
    (Chk.recode_wnaf control s.1 tb >>= fun r => pure r.1) = Ed448.recode_wnaf control s tb := by
  have hs := s.2
  rw [Chk.recode_wnaf, Ed448.recode_wnaf]
  dsimp only
  have hT : 1 ≤ 446 / (tb + 1) := by rw [Nat.one_le_div_iff (by omega)]; omega
  generalize 446 / (tb + 1) = T at *
  rw [subU_ok (by omega), bind_ok']
  cases h0 : setIdx control (T + 3 - 1) ⟨-1, 0⟩ with
  | error e => simp only [error_bind]
  | ok control' =>
    have hsm' : ∀ e ∈ control', SmallCtl e := set_small h0 hsm
    clear h0
    rw [bind_ok', bind_ok', decUsize_eq, subU_ok (by omega), bind_ok', bind_ok', idx_eq _ _ (by omega), bind_ok']
    have e0 : s.1[0] = s.head := by
      obtain ⟨l, hl⟩ := s
      match l, hl with
      | x :: l, _ => rfl
    rw [e0]
    have e1 : (List.range 29).map (· + 1) = List.range' 1 29 := by decide
    rw [e1]
    have := wnafOuter_eq htb s.1 (List.range' 1 29) (by decide) control' (T + 3 - 1 - 1) (u64 (s.head &&& 0xffff))
    erw [this]
    cases h2 : wnafOuter tb s.1 (List.range' 1 29) control' (T + 3 - 1 - 1) (u64 (s.head &&& 0xffff)) with
    | error e => simp only [error_bind]
    | ok r =>
      obtain ⟨c, p, cur⟩ := r
      have hp : p ≤ T + 3 - 1 - 1 := (wnafOuter_small s.1 _ (by decide) _ _ _ _ h2 hsm').2
      rw [bind_ok', bind_ok']
      dsimp only
      rw [subU_ok (by omega), bind_ok', forTo, wnafCopy_eq]
      cases wnafCopy (p + 1) (List.range (T + 3 - (p + 1))) c with
      | error e => simp only [error_bind]
      | ok c' =>
        rw [bind_ok', subU_ok (by omega), bind_ok', pure_ok, bind_ok']
        rfl

theorem recode_wnaf_small {tb : ℕ} (control : List SmvtControl) (hsm : ∀ e ∈ control, SmallCtl e) (s : Scalar) (ctl : List SmvtControl)
    (h : Ed448.recode_wnaf control s tb = .ok ctl) : ∀ e ∈ ctl, SmallCtl e := by
  rw [Ed448.recode_wnaf] at h
  dsimp only at h
  cases h0 : setIdx control (446 / (tb + 1) + 3 - 1) ⟨-1, 0⟩ with
  | error e => rw [h0, error_bind] at h; cases h
  | ok control' =>
    have hsm' : ∀ e ∈ control', SmallCtl e := set_small h0 hsm
    rw [h0, bind_ok'] at h
    cases h1 : decUsize (446 / (tb + 1) + 3 - 1) with
    | error e => rw [h1, error_bind] at h; cases h
    | ok p0 =>
      rw [h1, bind_ok'] at h
      cases h2 : wnafOuter tb s.1 ((List.range 29).map (· + 1)) control' p0 (u64 (s.head &&& 0xffff)) with
      | error e => rw [h2, error_bind] at h; cases h
      | ok r =>
        rw [h2, bind_ok'] at h
        exact wnafCopy_small _ _ _ _ h (wnafOuter_small s.1 _ (by decide) _ _ _ _ h2 hsm').1

/-! ## `decaf_prepare_wnaf_table` -/

theorem table_loop (tw : PNiels) : ∀ (n a : ℕ) (pre : List PNiels) (p : Pt), pre.length = a →
    (do
      let (dst, _) ← loop (fun i (dst, p) => do
        let p ← Chk.add_projected_niels_to_extended p tw false
        let e ← Chk.to_projected_niels p
        let dst ← setIdx dst i e
        pure (dst, p)) (List.range' a n) (pre ++ List.replicate n PNiels.zero, p)
      pure dst) = (wnafTableLoop tw n p >>= fun r => pure (pre ++ r))
  | 0, a, pre, p, _ => by
    simp only [List.range', loop, wnafTableLoop, pure_ok, bind_ok', List.replicate_zero]
  | n + 1, a, pre, p, h => by
    rw [List.range', loop, wnafTableLoop]
    dsimp only
    rw [Chk.add_projected_niels_to_extended_eq, bind_ok', Chk.to_projected_niels_eq]
    generalize Pt.add_projected_niels_to_extended p tw false = p'
    cases p'.to_projected_niels with
    | error e => simp only [error_bind]
    | ok e =>
      rw [bind_ok', bind_ok', setIdx_eq _ _ _ (by simp; omega), bind_ok', pure_ok, bind_ok', List.set_append_right _ _ (by omega), h, Nat.sub_self,
        List.replicate_succ, List.set_cons_zero]
      have := table_loop tw n (a + 1) (pre ++ [e]) p' (by simp [h])
      rw [List.append_assoc, List.singleton_append] at this
      rw [this, bind_assoc']
      congr 1
      funext r
      rw [pure_ok, pure_ok, bind_ok', List.append_assoc, List.singleton_append, pure_ok]

theorem Chk.decaf_prepare_wnaf_table_eq (p : Pt) :
    Chk.decaf_prepare_wnaf_table (List.replicate 8 PNiels.zero) p 3 = Ed448.decaf_prepare_wnaf_table p := by
  rw [Chk.decaf_prepare_wnaf_table, Ed448.decaf_prepare_wnaf_table, Chk.to_projected_niels_eq]
  cases p.to_projected_niels with
  | error e => simp only [error_bind]
  | ok d0 =>
    rw [bind_ok', bind_ok', show setIdx (List.replicate 8 PNiels.zero) 0 d0 = .ok ([d0] ++ List.replicate 7 PNiels.zero) from rfl, bind_ok',
      if_neg (by norm_num), Chk.double_internal_eq, bind_ok']
    dsimp only
    generalize p.double_internal false = p2
    rw [Chk.to_projected_niels_eq]
    cases p2.to_projected_niels with
    | error e => simp only [error_bind]
    | ok tw =>
      rw [bind_ok', bind_ok', show idx ([d0] ++ List.replicate 7 PNiels.zero) 0 = .ok d0 from rfl, bind_ok', Chk.add_projected_niels_to_extended_eq, bind_ok']
      generalize p2.add_projected_niels_to_extended d0 false = p3
      rw [Chk.to_projected_niels_eq]
      cases p3.to_projected_niels with
      | error e => simp only [error_bind]
      | ok d1 =>
        rw [bind_ok', bind_ok', show setIdx ([d0] ++ List.replicate 7 PNiels.zero) 1 d1 = .ok ([d0, d1] ++ List.replicate 6 PNiels.zero) from rfl, bind_ok',
          show min (1 <<< 3) ([d0, d1] ++ List.replicate 6 PNiels.zero).length - 2 = 6 from rfl, table_loop tw 6 2 [d0, d1] p3 rfl]
        rfl

/-! ## `point_double_scalamul_non_secret` -/

theorem digitIndex_pos {a : ℤ} (h : a > 0) : Chk.digitIndex a = .ok (asUsize a >>> 1) := by
  rw [Chk.digitIndex, if_pos h]; rfl

theorem digitIndex_neg {a : ℤ} (h : ¬ a > 0) (h2 : -2 ^ 40 ≤ a) : Chk.digitIndex a = .ok (asUsize (-a) >>> 1) := by
  rw [Chk.digitIndex, if_neg h, chkI64_ok (by omega) (by omega)]; rfl

theorem stepVar_eq (l : List PNiels) (i : ℤ) (ev : SmvtControl) (cv cp : Bool) (out : Pt) (c : ℕ) (h : SmallCtl ev) :
    Chk.stepVar l i ev cv cp out c = (cond cv (addVar l i ev cp out) (pure out) >>= fun o => pure (o, cond cv (c + 1) c)) := by
  cases cv with
  | false => rfl
  | true =>
    rw [Chk.stepVar, if_pos rfl, cond_true, cond_true, addVar]
    by_cases h0 : ev.addend > 0
    · rw [if_pos h0, digitIndex_pos h0, bind_ok']
      cases idx l (asUsize ev.addend >>> 1) with
      | error e => simp only [error_bind]
      | ok e => simp only [bind_ok', pure_ok, if_pos h0, Chk.add_projected_niels_to_extended_eq, Chk.sub_projected_niels_from_extended_point_eq,
          Chk.add_niels_to_extended_eq, Chk.sub_niels_from_extended_point_eq]
    · rw [if_neg h0, digitIndex_neg h0 h.2.2.1, bind_ok']
      cases idx l (asUsize (-ev.addend) >>> 1) with
      | error e => simp only [error_bind]
      | ok e => simp only [bind_ok', pure_ok, if_neg h0, Chk.add_projected_niels_to_extended_eq, Chk.sub_projected_niels_from_extended_point_eq,
          Chk.add_niels_to_extended_eq, Chk.sub_niels_from_extended_point_eq]

theorem stepPre_eq (i : ℤ) (ep : SmvtControl) (cp : Bool) (out : Pt) (c : ℕ) (h : SmallCtl ep) :
    Chk.stepPre i ep cp out c = (cond cp (addPre i ep out) (pure out) >>= fun o => pure (o, cond cp (c + 1) c)) := by
  cases cp with
  | false => rfl
  | true =>
    rw [Chk.stepPre, if_pos rfl, cond_true, cond_true, addPre]
    by_cases h0 : ep.addend > 0
    · rw [if_pos h0, digitIndex_pos h0, bind_ok']
      cases idx DECAF_WNAF_TABLE (asUsize ep.addend >>> 1) with
      | error e => simp only [error_bind]
      | ok e => simp only [bind_ok', pure_ok, if_pos h0, Chk.add_projected_niels_to_extended_eq, Chk.sub_projected_niels_from_extended_point_eq,
          Chk.add_niels_to_extended_eq, Chk.sub_niels_from_extended_point_eq]
    · rw [if_neg h0, digitIndex_neg h0 h.2.2.1, bind_ok']
      cases idx DECAF_WNAF_TABLE (asUsize (-ep.addend) >>> 1) with
      | error e => simp only [error_bind]
      | ok e => simp only [bind_ok', pure_ok, if_neg h0, Chk.add_projected_niels_to_extended_eq, Chk.sub_projected_niels_from_extended_point_eq,
          Chk.add_niels_to_extended_eq, Chk.sub_niels_from_extended_point_eq]

theorem idx_mem {α : Type} {l : List α} {i : ℕ} {x : α} (h : idx l i = .ok x) : x ∈ l := by
  rw [idx] at h
  split at h
  · obtain rfl := Except.ok.inj h
    exact List.mem_of_getElem? (by assumption)
  · cases h

theorem double_while {cv cp : List SmvtControl} (hv : ∀ e ∈ cv, SmallCtl e) (hp : ∀ e ∈ cp, SmallCtl e) (l : List PNiels) :
    ∀ (k f contv contp : ℕ) (out : Pt), k < f → k < 2 ^ 41 →
    (do
      let (out, _) ← while' (fun st : Pt × ℤ × ℕ × ℕ => decide (st.2.1 ≥ 0)) (Chk.doubleBody cv cp l) f (out, (k : ℤ) - 1, contv, contp)
      pure out) = doubleScalarLoop cv cp l k contv contp out
  | 0, f + 1, contv, contp, out, _, _ => rfl
  | k + 1, f + 1, contv, contp, out, hf, hk => by
    have e : ((k + 1 : ℕ) : ℤ) - 1 = (k : ℤ) := by push_cast; ring
    rw [while', if_pos (decide_eq_true (by dsimp only; omega)), e, doubleScalarLoop, Chk.doubleBody]
    dsimp only
    cases h1 : idx cv contv with
    | error e => simp only [error_bind]
    | ok ev =>
      rw [bind_ok', bind_ok']
      cases h2 : idx cp contp with
      | error e => simp only [error_bind]
      | ok ep =>
        rw [bind_ok', bind_ok', Chk.double_internal_eq, bind_ok', stepVar_eq _ _ _ _ _ _ _ (hv ev (idx_mem h1))]
        generalize Pt.double_internal out ((k : ℤ) != 0 && !((k : ℤ) == ev.power || (k : ℤ) == ep.power)) = o1
        cases cond ((k : ℤ) == ev.power) (addVar l k ev ((k : ℤ) == ep.power) o1) (pure o1) with
        | error e => simp only [error_bind]
        | ok o2 =>
          rw [bind_ok', pure_ok, bind_ok', bind_ok']
          dsimp only
          rw [stepPre_eq _ _ _ _ _ (hp ep (idx_mem h2))]
          cases cond ((k : ℤ) == ep.power) (addPre k ep o2) (pure o2) with
          | error e => simp only [error_bind]
          | ok o3 =>
            rw [bind_ok', pure_ok, bind_ok', bind_ok']
            dsimp only
            rw [chkI64_ok (by omega) (by omega), bind_ok', pure_ok, bind_ok']
            exact double_while hv hp l k f _ _ _ (by omega) (by omega)

theorem Chk.firstDigits_eq (v0 p0 : SmvtControl) (l : List PNiels) : Chk.firstDigits v0 p0 l = Ed448.firstDigits v0 p0 l := by
  rw [Chk.firstDigits, Ed448.firstDigits]
  simp only [Chk.to_extended_point_eq, Chk.add_niels_to_extended_eq, Chk.to_extended_eq, bind_ok']

theorem firstDigits_small {v0 p0 : SmvtControl} {l : List PNiels} {r : Pt × ℤ × ℕ × ℕ} (h : firstDigits v0 p0 l = .ok r) (hv : SmallCtl v0) (hp : SmallCtl p0) :
    r.2.1 ≤ 2 ^ 40 := by
  rw [firstDigits] at h
  split at h
  · cases h1 : idx l (asUsize (v0.addend / 2)) with
    | error e => rw [h1, error_bind] at h; cases h
    | ok e =>
      rw [h1, bind_ok'] at h
      obtain rfl := Except.ok.inj h
      exact hv.2.1
  · split at h
    · cases h1 : idx l (asUsize (v0.addend / 2)) with
      | error e => rw [h1, error_bind] at h; cases h
      | ok e =>
        rw [h1, bind_ok'] at h
        cases h2 : idx DECAF_WNAF_TABLE (asUsize p0.addend >>> 1) with
        | error e => rw [h2, error_bind] at h; cases h
        | ok f =>
          rw [h2, bind_ok'] at h
          obtain rfl := Except.ok.inj h
          exact hv.2.1
    · cases h2 : idx DECAF_WNAF_TABLE (asUsize p0.addend >>> 1) with
      | error e => rw [h2, error_bind] at h; cases h
      | ok f =>
        rw [h2, bind_ok'] at h
        obtain rfl := Except.ok.inj h
        exact hp.2.1

theorem replicate_small (n : ℕ) : ∀ e ∈ List.replicate n (⟨0, 0⟩ : SmvtControl), SmallCtl e := by
  intro e he
  rw [(List.mem_replicate.1 he).2]
  exact ⟨by norm_num, by norm_num, by norm_num, by norm_num⟩

attribute [local irreducible] Ed448.recode_wnaf Chk.recode_wnaf Chk.decaf_prepare_wnaf_table Ed448.decaf_prepare_wnaf_table Ed448.firstDigits while' doubleScalarLoop

theorem pure_bind' {α β : Type} (x : α) (f : α → Rust β) : ((pure x : Rust α) >>= f) = f x := rfl

/-- The double multiplication of verification: every counter stays in range. -/
theorem Chk.point_double_scalamul_non_secret_eq (p : Pt) (sp sv : Scalar) :
    Chk.point_double_scalamul_non_secret p sp.1 sv.1 = p.point_double_scalamul_non_secret sp sv := by
  rw [Chk.point_double_scalamul_non_secret, Pt.point_double_scalamul_non_secret]
  have e1 := Chk.recode_wnaf_eq (tb := 5) (by norm_num) (List.replicate 77 ⟨0, 0⟩) (replicate_small 77) sp
  have e2 := Chk.recode_wnaf_eq (tb := 3) (by norm_num) (List.replicate 115 ⟨0, 0⟩) (replicate_small 115) sv
  have s1 := recode_wnaf_small (tb := 5) (List.replicate 77 ⟨0, 0⟩) (replicate_small 77) sp
  have s2 := recode_wnaf_small (tb := 3) (List.replicate 115 ⟨0, 0⟩) (replicate_small 115) sv
  rw [← e1, ← e2] at *
  cases h1 : Chk.recode_wnaf (List.replicate 77 ⟨0, 0⟩) sp.1 5 with
  | error e => simp only [error_bind]
  | ok r1 =>
    rw [h1, bind_ok'] at s1
    obtain ⟨cp, x1⟩ := r1
    rw [bind_ok', bind_ok', pure_bind']
    dsimp only
    have s1 := s1 _ rfl
    cases h2 : Chk.recode_wnaf (List.replicate 115 ⟨0, 0⟩) sv.1 3 with
    | error e => simp only [error_bind]
    | ok r2 =>
      rw [h2, bind_ok'] at s2
      obtain ⟨cv, x2⟩ := r2
      have s2 := s2 _ rfl
      rw [bind_ok', bind_ok', pure_bind', Chk.decaf_prepare_wnaf_table_eq]
      dsimp only at s1 s2 ⊢
      cases Ed448.decaf_prepare_wnaf_table p with
      | error e => simp only [error_bind]
      | ok l =>
        rw [bind_ok', bind_ok']
        cases h3 : idx cv 0 with
        | error e => simp only [error_bind]
        | ok v0 =>
          rw [bind_ok', bind_ok']
          cases h4 : idx cp 0 with
          | error e => simp only [error_bind]
          | ok p0 =>
            rw [bind_ok', bind_ok', Chk.firstDigits_eq]
            cases h5 : Ed448.firstDigits v0 p0 l with
            | error e => simp only [error_bind]
            | ok r =>
              have hb := firstDigits_small h5 (s2 v0 (idx_mem h3)) (s1 p0 (idx_mem h4))
              rw [bind_ok', bind_ok']
              obtain ⟨out, i, contv, contp⟩ := r
              dsimp only at hb ⊢
              by_cases hi : i < 0
              · rw [if_pos hi, if_pos hi]
              · rw [if_neg hi, if_neg hi, chkI64_ok (by omega) (by omega), bind_ok']
                have := double_while s2 s1 l i.toNat ((i - 1 + 1).toNat + 1) contv contp out (by omega) (by omega)
                rw [Int.toNat_of_nonneg (by omega)] at this
                exact this

end Ed448
