import Verif.Curve.Wnaf

/-!
# Recoding: all words, and the final copy
-/

set_option exponentiation.threshold 1000

namespace Ed448

/-- The 16-bit word added to `current`. -/
theorem half_word (s : List W32) (hs : s.length = 14) (w : ℕ) (hw : w < 28) : ∃ sw, idx s (w / 2) = .ok sw ∧
    (u64 ((sw >>> (16 * (w % 2))) <<< 16)).toNat = 2 ^ 16 * (wordsNat s / 2 ^ (16 * w) % 2 ^ 16) := by
  have h : w / 2 < s.length := by omega
  refine ⟨_, idx_ok h, ?_⟩
  rw [toNat_u64, BitVec.toNat_shiftLeft, BitVec.toNat_ushiftRight, word_toNat, Nat.shiftRight_eq_div_pow, Nat.shiftLeft_eq]
  have e : wordsNat s / 2 ^ (16 * w) = wordsNat s / 2 ^ (32 * (w / 2)) / 2 ^ (16 * (w % 2)) := by
    rw [Nat.div_div_eq_div_mul, ← Nat.pow_add]
    congr 2
    omega
  rw [e]
  generalize wordsNat s / 2 ^ (32 * (w / 2)) = x
  rcases Nat.mod_two_eq_zero_or_one w with h | h <;> rw [h] <;> norm_num <;> omega

theorem wnafOuter_spec {tb len : ℕ} (htb : tb ≤ 5) (hlen : 446 / (tb + 1) + 3 ≤ len) (s : List W32) (hs : s.length = 14)
    (rest : List SmvtControl) :
    ∀ (n w : ℕ) (control : List SmvtControl) (position : ℕ) (current : W64) (k : ℕ) (L : List SmvtControl), w + n = 30 → 1 ≤ w →
      current.toNat ≤ 2 ^ 16 → 2 ^ (k - 16 * (w - 1)) ∣ current.toNat → k ≤ 16 * (w - 1) + tb + 1 →
      WInv tb (wordsNat s) len (16 * (w - 1)) position control (current.toNat + 2 ^ 16 * (wordsNat s / 2 ^ (16 * w))) k L rest →
      ∃ control' position' current' k' L', wnafOuter tb s (List.range' w n) control position current = .ok (control', position', current') ∧
        WInv tb (wordsNat s) len 464 position' control' 0 k' L' rest
  | 0, w, control, position, current, k, L, hwn, hw, hle, hdvd, hk, hI => by
    obtain rfl : w = 30 := by omega
    refine ⟨control, position, current, k, L, rfl, ?_⟩
    have h0 := hI.le
    have hR : current.toNat + 2 ^ 16 * (wordsNat s / 2 ^ (16 * 30)) = 0 := by
      by_contra hne
      have h1 : 1 ≤ current.toNat + 2 ^ 16 * (wordsNat s / 2 ^ (16 * 30)) := Nat.pos_of_ne_zero hne
      have h2 := le_trans (Nat.mul_le_mul_left (2 ^ (16 * (30 - 1))) h1) h0
      rw [Nat.mul_one] at h2
      have := (Nat.pow_le_pow_iff_right (by norm_num : 1 < 2)).mp h2
      omega
    rw [hR] at hI
    exact hI
  | n + 1, w, control, position, current, k, L, hwn, hw, hle, hdvd, hk, hI => by
    have hV : wordsNat s < 2 ^ 448 := by have := wordsNat_lt s; rwa [hs] at this
    -- the word is added
    obtain ⟨c1, hadd, hc1⟩ : ∃ c1 : W64, wnafAdd s w current = .ok c1 ∧
        c1.toNat = current.toNat + 2 ^ 16 * (wordsNat s / 2 ^ (16 * w) % 2 ^ 16) := by
      unfold wnafAdd
      by_cases h28 : w < 28
      · obtain ⟨sw, h1, h2⟩ := half_word s hs w h28
        rw [if_pos h28, h1, bind_ok, addU64, h2, if_pos (by
          have : wordsNat s / 2 ^ (16 * w) % 2 ^ 16 < 2 ^ 16 := Nat.mod_lt _ (by norm_num)
          omega)]
        refine ⟨_, rfl, ?_⟩
        rw [BitVec.toNat_add, h2, Nat.mod_eq_of_lt]
        have : wordsNat s / 2 ^ (16 * w) % 2 ^ 16 < 2 ^ 16 := Nat.mod_lt _ (by norm_num)
        omega
      · refine ⟨current, by rw [if_neg h28]; rfl, ?_⟩
        have : wordsNat s / 2 ^ (16 * w) = 0 := Nat.div_eq_of_lt (lt_of_lt_of_le hV (Nat.pow_le_pow_right (by norm_num) (by omega)))
        rw [this]
        rfl
    have hsplit : wordsNat s / 2 ^ (16 * w) = wordsNat s / 2 ^ (16 * w) % 2 ^ 16 + 2 ^ 16 * (wordsNat s / 2 ^ (16 * (w + 1))) := by
      rw [show 16 * (w + 1) = 16 * w + 16 by ring, Nat.pow_add, ← Nat.div_div_eq_div_mul]
      omega
    have hR : current.toNat + 2 ^ 16 * (wordsNat s / 2 ^ (16 * w)) = c1.toNat + 2 ^ 32 * (wordsNat s / 2 ^ (16 * (w + 1))) := by
      rw [hc1]
      omega
    rw [hR] at hI
    have hmod : wordsNat s / 2 ^ (16 * w) % 2 ^ 16 < 2 ^ 16 := Nat.mod_lt _ (by norm_num)
    obtain ⟨control', position', c2, k', L', i1, i2, i3, i4, i5, i6⟩ := wnafInner_spec htb hlen hw rfl rest 17 control position c1 k L (by norm_num)
      (by omega) (by omega) (by
        rw [hc1]
        refine dvd_add hdvd (Dvd.dvd.mul_right (pow_dvd_pow 2 ?_) _)
        omega) (by omega) hI
    have hsh : (c2 >>> 16).toNat = c2.toNat / 2 ^ 16 := by
      rw [BitVec.toNat_ushiftRight, Nat.shiftRight_eq_div_pow]
    have hR2 : c2.toNat + 2 ^ 32 * (wordsNat s / 2 ^ (16 * (w + 1))) =
        2 ^ 16 * ((c2 >>> 16).toNat + 2 ^ 16 * (wordsNat s / 2 ^ (16 * (w + 1)))) := by
      rw [hsh]
      omega
    have hpw : 2 ^ (16 * (w + 1 - 1)) = 2 ^ (16 * (w - 1)) * 2 ^ 16 := by
      rw [← Nat.pow_add]
      congr 1
      omega
    have hI2 : WInv tb (wordsNat s) len (16 * (w + 1 - 1)) position' control'
        ((c2 >>> 16).toNat + 2 ^ 16 * (wordsNat s / 2 ^ (16 * (w + 1)))) k' L' rest := by
      rw [hR2] at i6
      refine ⟨i6.len, i6.drop, i6.pos, ?_, ?_, i6.good, i6.num, i6.below, ?_⟩
      · have h := i6.val
        have hz : (2 : ℤ) ^ (16 * (w + 1 - 1)) = 2 ^ (16 * (w - 1)) * 2 ^ 16 := by exact_mod_cast hpw
        rw [h, hz, Nat.cast_mul, Nat.cast_pow, Nat.cast_ofNat, mul_assoc]
      · have h := i6.le
        rw [hpw, Nat.mul_assoc]
        exact h
      · intro x hx
        rcases i6.top x hx with h | h
        · exact Or.inl h
        · right
          exact Nat.pos_of_mul_pos_left h
    obtain ⟨control'', position'', c3, k'', L'', j1, j2⟩ := wnafOuter_spec htb hlen s hs rest n (w + 1) control' position' (c2 >>> 16) k' L' (by omega) (by omega)
      (by rw [hsh]; omega) (by
        rw [hsh]
        obtain ⟨a, ha⟩ : 2 ^ 16 ∣ c2.toNat := Nat.dvd_of_mod_eq_zero i3
        rw [ha, Nat.mul_div_cancel_left _ (by norm_num)]
        by_cases hkk : 16 ≤ k' - 16 * (w - 1)
        · rw [show k' - 16 * (w - 1) = 16 + (k' - 16 * (w + 1 - 1)) by omega, Nat.pow_add, ha] at i4
          exact Nat.dvd_of_mul_dvd_mul_left (by norm_num) i4
        · rw [show k' - 16 * (w + 1 - 1) = 0 by omega, Nat.pow_zero]
          exact Nat.one_dvd _) (by omega) hI2
    refine ⟨control'', position'', c3, k'', L'', ?_, j2⟩
    rw [List.range'_succ, wnafOuter, hadd, bind_ok, i1, bind_ok]
    exact j1

theorem wnafCopy_spec (position : ℕ) : ∀ (n a : ℕ) (control : List SmvtControl), a + n + position ≤ control.length →
    ∃ r, wnafCopy position (List.range' a n) control = .ok r ∧ r.length = control.length ∧
      ∀ i, r[i]? = if a ≤ i ∧ i < a + n then control[i + position]? else control[i]?
  | 0, a, control, _ => ⟨control, rfl, rfl, fun i => by rw [if_neg (by omega)]⟩
  | n + 1, a, control, h => by
    have h1 : a + position < control.length := by omega
    obtain ⟨r, h2, h3, h4⟩ := wnafCopy_spec position n (a + 1) (control.set a control[a + position]) (by rw [List.length_set]; omega)
    refine ⟨r, ?_, by rw [h3, List.length_set], ?_⟩
    · rw [List.range'_succ, wnafCopy, idx_ok h1, bind_ok, setIdx, if_pos (by omega), bind_ok]
      exact h2
    · intro i
      rw [h4]
      by_cases hi : i = a
      · subst hi
        rw [if_neg (by omega), if_pos (by omega), List.getElem?_set_self (by omega), List.getElem?_eq_getElem h1]
      · rw [List.getElem?_set_ne (Ne.symm hi)]
        by_cases hp : i + position = a
        · have : ¬ (a + 1 ≤ i ∧ i < a + 1 + n) := by omega
          rw [if_neg this, if_neg (by omega)]
        · rw [List.getElem?_set_ne (Ne.symm hp)]
          congr 1
          apply propext
          omega

/-- The recoded scalar: digits, then the end marker. The digits represent the scalar and the first one is positive. -/
structure Recoded (tb V : ℕ) (control : List SmvtControl) (L : List SmvtControl) : Prop where
  ctl : ∃ rest, control = L ++ ⟨-1, 0⟩ :: rest
  val : digitsVal L = V
  good : GoodDigits tb L
  top : ∀ x ∈ L.head?, 0 < x.addend

theorem recode_wnaf_spec {tb : ℕ} (htb : tb ≤ 5) (control : List SmvtControl) (hlen : 446 / (tb + 1) + 3 ≤ control.length) (s : Scalar)
    (hs : s.val ≤ 2 ^ 446) : ∃ ctl L, recode_wnaf control s tb = .ok ctl ∧ Recoded tb s.val ctl L := by
  obtain ⟨rest, hrest⟩ : ∃ rest, (control.set (446 / (tb + 1) + 3 - 1) ⟨-1, 0⟩).drop (446 / (tb + 1) + 2) = (⟨-1, 0⟩ : SmvtControl) :: rest := by
    refine ⟨(control.set (446 / (tb + 1) + 3 - 1) ⟨-1, 0⟩).drop (446 / (tb + 1) + 2 + 1), ?_⟩
    rw [show 446 / (tb + 1) + 3 - 1 = 446 / (tb + 1) + 2 from rfl, List.drop_eq_getElem_cons (by rw [List.length_set]; omega), List.getElem_set_self]
  have hc0 : (u64 (s.head &&& (@OfNat.ofNat (BitVec 32) 0xffff BitVec.instOfNat))).toNat = s.val % 2 ^ 16 := by
    rw [toNat_u64, BitVec.toNat_and, s.head_mod, show (@OfNat.ofNat (BitVec 32) 0xffff BitVec.instOfNat).toNat = 2 ^ 16 - 1 from rfl,
      Nat.and_two_pow_sub_one_eq_mod]
    omega
  have hR : s.val % 2 ^ 16 + 2 ^ 16 * (wordsNat s.1 / 2 ^ (16 * 1)) = s.val := by
    show s.val % 2 ^ 16 + 2 ^ 16 * (s.val / 2 ^ (16 * 1)) = s.val
    omega
  obtain ⟨control', position', current', k', L', h1, h2⟩ := wnafOuter_spec htb hlen s.1 s.2 (⟨-1, 0⟩ :: rest) 29 1
    (control.set (446 / (tb + 1) + 3 - 1) ⟨-1, 0⟩) (446 / (tb + 1) + 3 - 1 - 1) (u64 (s.head &&& (@OfNat.ofNat (BitVec 32) 0xffff BitVec.instOfNat))) 0 []
    rfl (le_refl _) (by rw [hc0]; omega) (by simp) (by omega) (by
      rw [hc0, hR]
      constructor
      · rw [List.length_set]
      · rw [show 446 / (tb + 1) + 3 - 1 - 1 + 1 = 446 / (tb + 1) + 2 from rfl, hrest]
        rfl
      · rfl
      · rw [digitsVal]
        simp only [Nat.sub_self, Nat.mul_zero, pow_zero, one_mul, zero_add]
        rfl
      · simpa using hs
      · exact ⟨fun x hx => absurd hx (by simp), List.Pairwise.nil⟩
      · simp
      · exact fun x hx => absurd hx (by simp)
      · exact fun x hx => absurd hx (by simp))
  obtain ⟨r, h3, h4, h5⟩ := wnafCopy_spec (position' + 1) (L'.length + 1) 0 control' (by
    have := h2.pos
    rw [h2.len]
    omega)
  have hn : 446 / (tb + 1) + 3 - (position' + 1) = L'.length + 1 := by
    have := h2.pos
    omega
  refine ⟨r, L', ?_, ?_, ?_, h2.good, ?_⟩
  · unfold recode_wnaf
    dsimp only
    rw [setIdx, if_pos (by omega), bind_ok, decUsize, if_neg (by omega), bind_ok]
    rw [show (List.range 29).map (· + 1) = List.range' 1 29 from rfl, h1, bind_ok]
    dsimp only
    rw [hn, List.range_eq_range']
    exact h3
  · refine ⟨r.drop (L'.length + 1), ?_⟩
    rw [← List.singleton_append, ← List.append_assoc]
    conv_lhs => rw [← List.take_append_drop (L'.length + 1) r]
    congr 1
    apply List.ext_getElem?
    intro i
    rw [List.getElem?_take]
    by_cases hi : i < L'.length + 1
    · rw [if_pos hi, h5, if_pos (by omega), Nat.add_comm i, ← List.getElem?_drop, h2.drop]
      by_cases hi2 : i < L'.length
      · rw [List.getElem?_append_left hi2, List.getElem?_append_left hi2]
      · obtain rfl : i = L'.length := by omega
        rw [List.getElem?_append_right (le_refl _), List.getElem?_append_right (le_refl _), Nat.sub_self]
        rfl
    · rw [if_neg hi, List.getElem?_eq_none]
      simp only [List.length_append, List.length_singleton]
      omega
  · have := h2.val
    simp only [Nat.cast_zero, mul_zero, add_zero] at this
    exact this.symm
  · intro x hx
    rcases h2.top x hx with h | h
    · exact h
    · exact absurd h (lt_irrefl _)

end Ed448
