import Verif.Curve.RepSys

/-!
# Recoding of a scalar in signed odd digits
-/

set_option exponentiation.threshold 1000

namespace Ed448

/-! ## Arithmetic of one digit -/

/-- Removing the digit keeps the rest between 0 and a power of two that bounds the number. -/
theorem digit_bound {x x' : ℤ} {m N : ℕ} (hm : (2 : ℤ) ^ (m + 1) ∣ x') (h1 : x' < x + 2 ^ m) (h2 : x < x' + 2 ^ m) (h0 : 0 ≤ x) :
    0 ≤ x' ∧ (x ≤ 2 ^ N → x' ≤ 2 ^ N) := by
  obtain ⟨k, rfl⟩ := hm
  have hp : (0 : ℤ) < 2 ^ m := by positivity
  have e : (2 : ℤ) ^ (m + 1) = 2 * 2 ^ m := by ring
  rw [e] at h1 h2 ⊢
  have hk : 0 ≤ k := by
    by_contra hk
    have : k ≤ -1 := by omega
    nlinarith
  refine ⟨by positivity, fun hN => ?_⟩
  by_cases hle : m + 1 ≤ N
  · obtain ⟨j, rfl⟩ := Nat.exists_eq_add_of_le hle
    rw [show (2 : ℤ) ^ (m + 1 + j) = 2 * 2 ^ m * 2 ^ j by ring] at *
    have : k ≤ 2 ^ j := by
      by_contra hkj
      have : 2 ^ j + 1 ≤ k := by omega
      nlinarith
    nlinarith
  · have h3 : (2 : ℤ) ^ N ≤ 2 ^ m := pow_le_pow_right₀ (by norm_num) (by omega)
    have : k = 0 := by
      by_contra hk0
      have : 1 ≤ k := by omega
      nlinarith
    subst this
    have : (0 : ℤ) < 2 ^ N := by positivity
    linarith

/-! ## Trailing zeroes -/

theorem tzLoop_spec : ∀ (k : ℕ) (n : W32) (r : W32), n.toNat ≠ 0 → n.toNat < 2 ^ k → r.toNat + k ≤ 32 →
    ∃ j, tzLoop k n r = .ok (r + BitVec.ofNat 32 j) ∧ j < k ∧ 2 ^ j ∣ n.toNat ∧ n.toNat / 2 ^ j % 2 = 1
  | 0, n, r, h0, h, _ => absurd h (by simpa using h0)
  | k + 1, n, r, h0, h, hr => by
    rw [tzLoop]
    by_cases he : n.toNat % 2 = 0
    · rw [if_pos he]
      have e1 : (n / 2).toNat = n.toNat / 2 := by rw [BitVec.toNat_udiv]; rfl
      have e2 : (r + 1).toNat = r.toNat + 1 := by
        rw [BitVec.toNat_add]
        show (r.toNat + 1) % 2 ^ 32 = _
        rw [Nat.mod_eq_of_lt]
        omega
      obtain ⟨j, h1, h2, h3, h4⟩ := tzLoop_spec k (n / 2) (r + 1) (by rw [e1]; omega)
        (by rw [e1, Nat.div_lt_iff_lt_mul (by norm_num)]; rwa [Nat.pow_succ] at h) (by omega)
      rw [e1] at h3 h4
      refine ⟨j + 1, ?_, by omega, ?_, ?_⟩
      · rw [h1, BitVec.add_assoc]
        congr 2
        rw [Nat.add_comm, BitVec.ofNat_add]
        rfl
      · rw [Nat.pow_succ, Nat.mul_comm]
        obtain ⟨c, hc⟩ := h3
        exact ⟨c, by rw [Nat.mul_assoc, ← hc]; omega⟩
      · rw [Nat.pow_succ, Nat.mul_comm, ← Nat.div_div_eq_div_mul]
        exact h4
    · rw [if_neg he]
      exact ⟨0, by simp, by omega, by simp, by simpa using he⟩

theorem trailing_zeroes_spec (n : W32) (h : n.toNat ≠ 0) : ∃ pos : W32, trailing_zeroes_32 n = .ok pos ∧ 2 ^ pos.toNat ∣ n.toNat ∧
    n.toNat / 2 ^ pos.toNat % 2 = 1 := by
  unfold trailing_zeroes_32
  rw [if_neg (by rintro rfl; exact h rfl)]
  obtain ⟨j, h1, h2, h3, h4⟩ := tzLoop_spec 32 n 0 h n.isLt (by decide)
  have e : ((@OfNat.ofNat (BitVec 32) 0 BitVec.instOfNat) + BitVec.ofNat 32 j).toNat = j := by
    show ((0#32) + BitVec.ofNat 32 j).toNat = j
    rw [BitVec.zero_add, BitVec.toNat_ofNat, Nat.mod_eq_of_lt]
    omega
  refine ⟨_, h1, ?_, ?_⟩
  · rw [e]; exact h3
  · rw [e]; exact h4

/-! ## One digit -/

theorem and_low (o : W32) (n : ℕ) (hn : n < 32) :
    (o &&& ((@OfNat.ofNat (BitVec 32) 1 BitVec.instOfNat <<< n) - (@OfNat.ofNat (BitVec 32) 1 BitVec.instOfNat))).toNat = o.toNat % 2 ^ n := by
  have e : ((@OfNat.ofNat (BitVec 32) 1 BitVec.instOfNat <<< n) - (@OfNat.ofNat (BitVec 32) 1 BitVec.instOfNat)).toNat = 2 ^ n - 1 := by
    interval_cases n <;> rfl
  rw [BitVec.toNat_and, e, Nat.and_two_pow_sub_one_eq_mod]

theorem and_bit (o : W32) (n : ℕ) (hn : n < 32) :
    (o &&& (@OfNat.ofNat (BitVec 32) 1 BitVec.instOfNat <<< n) ≠ @OfNat.ofNat (BitVec 32) 0 BitVec.instOfNat) ↔ o.toNat / 2 ^ n % 2 = 1 := by
  have e : (@OfNat.ofNat (BitVec 32) 1 BitVec.instOfNat <<< n) = BitVec.twoPow 32 n := rfl
  have e1 : (@OfNat.ofNat (BitVec 32) 0 BitVec.instOfNat) = 0#32 := rfl
  have h1 : o.getLsbD n = decide (o.toNat / 2 ^ n % 2 = 1) := by
    rw [BitVec.getLsbD, Nat.testBit_eq_decide_div_mod_eq]
  rw [e, e1, BitVec.and_twoPow, h1]
  by_cases h : o.toNat / 2 ^ n % 2 = 1
  · simp only [h, decide_true, if_true, iff_true]
    intro hh
    have := congrArg BitVec.toNat hh
    rw [BitVec.toNat_twoPow_of_lt hn] at this
    simp at this
  · simp [h]

/-- The digit, as an integer. -/
def wdigit (tb o : ℕ) : ℤ := if o / 2 ^ (tb + 1) % 2 = 1 then (o % 2 ^ (tb + 1) : ℕ) - 2 ^ (tb + 1) else (o % 2 ^ (tb + 1) : ℕ)

theorem wdigit_spec {tb o : ℕ} (ho : o % 2 = 1) : (2 : ℤ) ^ (tb + 2) ∣ (o : ℤ) - wdigit tb o ∧ wdigit tb o < 2 ^ (tb + 1) ∧
    -2 ^ (tb + 1) < wdigit tb o ∧ wdigit tb o % 2 = 1 := by
  have hp : (0 : ℤ) < 2 ^ (tb + 1) := by positivity
  have e : (o : ℤ) = 2 ^ (tb + 1) * ((o / 2 ^ (tb + 1) : ℕ) : ℤ) + ((o % 2 ^ (tb + 1) : ℕ) : ℤ) := by
    exact_mod_cast (Nat.div_add_mod o (2 ^ (tb + 1))).symm
  have hlt : ((o % 2 ^ (tb + 1) : ℕ) : ℤ) < 2 ^ (tb + 1) := by exact_mod_cast Nat.mod_lt o (by positivity)
  have hodd : o % 2 ^ (tb + 1) % 2 = 1 := by rw [Nat.mod_mod_of_dvd _ (dvd_pow_self 2 (by omega))]; exact ho
  have hnn : (1 : ℤ) ≤ ((o % 2 ^ (tb + 1) : ℕ) : ℤ) := by
    have : 1 ≤ o % 2 ^ (tb + 1) := by omega
    exact_mod_cast this
  have hodd' : ((o % 2 ^ (tb + 1) : ℕ) : ℤ) % 2 = 1 := by exact_mod_cast hodd
  have hpe : (2 : ℤ) ^ (tb + 1) % 2 = 0 := by rw [pow_succ]; exact Int.mul_emod_left _ _
  unfold wdigit
  split
  · rename_i h
    refine ⟨?_, by linarith, by linarith, by omega⟩
    refine ⟨((o / 2 ^ (tb + 1) / 2 : ℕ) : ℤ) + 1, ?_⟩
    have : ((o / 2 ^ (tb + 1) : ℕ) : ℤ) = 2 * ((o / 2 ^ (tb + 1) / 2 : ℕ) : ℤ) + 1 := by exact_mod_cast (by omega)
    rw [e, this, show (2 : ℤ) ^ (tb + 2) = 2 * 2 ^ (tb + 1) by ring]
    ring
  · rename_i h
    refine ⟨?_, hlt, by linarith, hodd'⟩
    refine ⟨((o / 2 ^ (tb + 1) / 2 : ℕ) : ℤ), ?_⟩
    have : ((o / 2 ^ (tb + 1) : ℕ) : ℤ) = 2 * ((o / 2 ^ (tb + 1) / 2 : ℕ) : ℤ) := by exact_mod_cast (by omega)
    rw [e, this, show (2 : ℤ) ^ (tb + 2) = 2 * 2 ^ (tb + 1) by ring]
    ring

/-- The word computed for the digit. -/
def wdelta (tb : ℕ) (odd : W32) : W32 :=
  if odd &&& ((1 : W32) <<< (tb + 1)) ≠ 0 then (odd &&& (((1 : W32) <<< (tb + 1)) - 1)) - ((1 : W32) <<< (tb + 1)) else odd &&& (((1 : W32) <<< (tb + 1)) - 1)

theorem wdelta_toInt {tb : ℕ} (htb : tb ≤ 5) (odd : W32) : (wdelta tb odd).toInt = wdigit tb odd.toNat := by
  have h1 := and_low odd (tb + 1) (by omega)
  have h2 := and_bit odd (tb + 1) (by omega)
  have h3 : odd.toNat % 2 ^ (tb + 1) < 2 ^ (tb + 1) := Nat.mod_lt _ (by positivity)
  have h4 : 2 ^ (tb + 1) ≤ 2 ^ 6 := Nat.pow_le_pow_right (by norm_num) (by omega)
  have h5 : ((@OfNat.ofNat (BitVec 32) 1 BitVec.instOfNat <<< (tb + 1))).toNat = 2 ^ (tb + 1) := by
    interval_cases tb <;> rfl
  unfold wdelta wdigit
  by_cases h : odd.toNat / 2 ^ (tb + 1) % 2 = 1
  · rw [if_pos (h2.mpr h), if_pos h, BitVec.toInt_sub, BitVec.toInt_eq_toNat_of_lt, BitVec.toInt_eq_toNat_of_lt]
    · erw [h1, h5]
      rw [Int.bmod_eq_of_le]
      · push_cast; rfl
      · interval_cases tb <;> omega
      · interval_cases tb <;> omega
    · erw [h5]; omega
    · erw [h1]; omega
  · rw [if_neg (fun hh => h (h2.mp hh)), if_neg h, BitVec.toInt_eq_toNat_of_lt]
    · exact_mod_cast h1
    · erw [h1]; omega

theorem shl_toInt (x : W32) (n : ℕ) (hn : n < 16) (h1 : x.toInt < 2 ^ 6) (h2 : -2 ^ 6 < x.toInt) : (x <<< n).toInt = x.toInt * 2 ^ n := by
  have hb : (2 : ℤ) ^ n ≤ 2 ^ 15 := pow_le_pow_right₀ (by norm_num) (by omega)
  have hp : (0 : ℤ) < 2 ^ n := by positivity
  have e : (BitVec.twoPow 32 n).toInt = 2 ^ n := by
    interval_cases n <;> decide
  rw [BitVec.shiftLeft_eq_mul_twoPow, BitVec.toInt_mul, e, Int.bmod_eq_of_le]
  · have t : -(2 ^ 6 * 2 ^ 15) ≤ x.toInt * 2 ^ n := by nlinarith
    exact le_trans (by norm_num) t
  · have t : x.toInt * 2 ^ n ≤ 2 ^ 6 * 2 ^ 15 := by nlinarith
    exact lt_of_le_of_lt t (by norm_num)

theorem and_ffff (c : W64) : (c &&& (@OfNat.ofNat (BitVec 64) 0xffff BitVec.instOfNat) ≠ (@OfNat.ofNat (BitVec 64) 0 BitVec.instOfNat)) ↔ c.toNat % 2 ^ 16 ≠ 0 := by
  have e : (c &&& (@OfNat.ofNat (BitVec 64) 0xffff BitVec.instOfNat)).toNat = c.toNat % 2 ^ 16 := by
    rw [BitVec.toNat_and, show (@OfNat.ofNat (BitVec 64) 0xffff BitVec.instOfNat).toNat = 2 ^ 16 - 1 from rfl, Nat.and_two_pow_sub_one_eq_mod]
  rw [← e]
  constructor
  · intro h h2
    exact h (BitVec.eq_of_toNat_eq h2)
  · intro h h2
    rw [h2] at h
    exact h rfl

theorem toNat_ofInt64 (z : ℤ) (h0 : 0 ≤ z) (h1 : z < 2 ^ 64) : ((BitVec.ofInt 64 z).toNat : ℤ) = z := by
  rw [BitVec.toNat_ofInt, Int.toNat_of_nonneg (Int.emod_nonneg _ (by norm_num))]
  exact Int.emod_eq_of_lt h0 (by simpa using h1)

/-- One pass through the inner loop. -/
theorem wnafInner_step {tb w fuel position : ℕ} {control : List SmvtControl} {current : W64} (htb : tb ≤ 5)
    (hc : current.toNat % 2 ^ 16 ≠ 0) (hle : current.toNat ≤ 2 ^ 32) (hp : 0 < position) (hl : position < control.length) :
    ∃ (pos : ℕ) (current' : W64), pos < 16 ∧ 2 ^ pos ∣ current.toNat ∧ current.toNat / 2 ^ pos % 2 = 1 ∧
      (current'.toNat : ℤ) = current.toNat - wdigit tb (current.toNat / 2 ^ pos) * 2 ^ pos ∧
      wnafInner tb w (fuel + 1) control position current =
        wnafInner tb w fuel (control.set position ⟨(pos : ℤ) + 16 * ((w : ℤ) - 1), wdigit tb (current.toNat / 2 ^ pos)⟩) (position - 1)
          current' := by
  have hlo : (lo32 current).toNat = current.toNat := by
    rw [toNat_lo32, Nat.mod_eq_of_lt]
    rcases Nat.lt_or_eq_of_le hle with h | h
    · exact h
    · rw [h] at hc; exact absurd rfl hc
  obtain ⟨pos, h1, h2, h3⟩ := trailing_zeroes_spec (lo32 current) (by rw [hlo]; intro h; rw [h] at hc; exact hc rfl)
  rw [hlo] at h2 h3
  have hpos : pos.toNat < 16 := by
    by_contra hcon
    apply hc
    exact Nat.mod_eq_zero_of_dvd (dvd_trans (pow_dvd_pow 2 (by omega)) h2)
  have hodd : (lo32 current >>> pos.toNat).toNat = current.toNat / 2 ^ pos.toNat := by
    rw [BitVec.toNat_ushiftRight, hlo, Nat.shiftRight_eq_div_pow]
  obtain ⟨d1, d2, d3, d4⟩ := wdigit_spec (tb := tb) h3
  have hd := wdelta_toInt htb (lo32 current >>> pos.toNat)
  rw [hodd] at hd
  have hb6 : (2 : ℤ) ^ (tb + 1) ≤ 2 ^ 6 := pow_le_pow_right₀ (by norm_num) (by omega)
  have hsh := shl_toInt (wdelta tb (lo32 current >>> pos.toNat)) pos.toNat hpos (by rw [hd]; linarith) (by rw [hd]; linarith)
  rw [hd] at hsh
  have hdec : (current.toNat : ℤ) = 2 ^ pos.toNat * ((current.toNat / 2 ^ pos.toNat : ℕ) : ℤ) := by
    exact_mod_cast (Nat.mul_div_cancel' h2).symm
  have hp2 : (0 : ℤ) < 2 ^ pos.toNat := by positivity
  obtain ⟨b1, b2⟩ := digit_bound (x := current.toNat) (x' := current.toNat - wdigit tb (current.toNat / 2 ^ pos.toNat) * 2 ^ pos.toNat)
    (m := pos.toNat + tb + 1) (N := 32) (by
      obtain ⟨k, hk⟩ := d1
      refine ⟨k, ?_⟩
      rw [show pos.toNat + tb + 1 + 1 = pos.toNat + (tb + 2) by ring, pow_add, mul_assoc, ← hk, mul_sub, ← hdec]
      ring) (by
      rw [show (2 : ℤ) ^ (pos.toNat + tb + 1) = 2 ^ (tb + 1) * 2 ^ pos.toNat by ring]
      nlinarith) (by
      rw [show (2 : ℤ) ^ (pos.toNat + tb + 1) = 2 ^ (tb + 1) * 2 ^ pos.toNat by ring]
      nlinarith) (by positivity)
  have hle' : (current.toNat : ℤ) ≤ 2 ^ 32 := by exact_mod_cast hle
  have b3 := b2 hle'
  refine ⟨pos.toNat, BitVec.ofInt 64 (current.toNat - wdigit tb (current.toNat / 2 ^ pos.toNat) * 2 ^ pos.toNat), hpos, h2, h3, ?_, ?_⟩
  · rw [toNat_ofInt64 _ b1 (lt_of_le_of_lt b3 (by norm_num))]
  · have hci : current.toInt = current.toNat := BitVec.toInt_eq_toNat_of_lt (by omega)
    have hchk : chkI64 (current.toInt - (wdelta tb (lo32 current >>> pos.toNat) <<< pos.toNat).toInt) =
        .ok (current.toNat - wdigit tb (current.toNat / 2 ^ pos.toNat) * 2 ^ pos.toNat) := by
      unfold chkI64
      rw [hsh, hci, if_pos]
      constructor
      · exact le_trans (by norm_num) b1
      · exact lt_of_le_of_lt b3 (by norm_num)
    rw [wnafInner, if_pos ((and_ffff current).mpr hc)]
    dsimp only
    rw [h1, bind_ok]
    rw [show (if lo32 current >>> pos.toNat &&& (@OfNat.ofNat (BitVec 32) 1 BitVec.instOfNat) <<< (tb + 1) ≠ (@OfNat.ofNat (BitVec 32) 0 BitVec.instOfNat) then
        (lo32 current >>> pos.toNat &&& (@OfNat.ofNat (BitVec 32) 1 BitVec.instOfNat) <<< (tb + 1) - (@OfNat.ofNat (BitVec 32) 1 BitVec.instOfNat)) -
          (@OfNat.ofNat (BitVec 32) 1 BitVec.instOfNat) <<< (tb + 1)
        else lo32 current >>> pos.toNat &&& (@OfNat.ofNat (BitVec 32) 1 BitVec.instOfNat) <<< (tb + 1) - (@OfNat.ofNat (BitVec 32) 1 BitVec.instOfNat)) =
        wdelta tb (lo32 current >>> pos.toNat) from rfl]
    rw [hchk, bind_ok, hd]
    rw [setIdx, if_pos hl, bind_ok, decUsize, if_neg (by omega), bind_ok]

/-! ## Lists of digits -/

/-- The number that a list of digits represents. -/
def digitsVal : List SmvtControl → ℤ
  | [] => 0
  | x :: xs => x.addend * 2 ^ x.power.toNat + digitsVal xs

/-- Odd digits between `-2^(tb+1)` and `2^(tb+1)`, powers in decreasing order and at least `tb + 2` apart. -/
structure GoodDigits (tb : ℕ) (L : List SmvtControl) : Prop where
  digit : ∀ x ∈ L, x.addend % 2 = 1 ∧ -2 ^ (tb + 1) < x.addend ∧ x.addend < 2 ^ (tb + 1) ∧ 0 ≤ x.power
  spaced : L.Pairwise (fun x y => y.power + ((tb : ℤ) + 2) ≤ x.power)

/-- The state of the recoding: digits `L` have been written, `R` times `2^base` is left, and is a multiple of `2^k`. -/
structure WInv (tb V len base position : ℕ) (control : List SmvtControl) (R k : ℕ) (L rest : List SmvtControl) : Prop where
  len : control.length = len
  drop : control.drop (position + 1) = L ++ rest
  pos : position + L.length + 2 = 446 / (tb + 1) + 3
  val : (V : ℤ) = digitsVal L + 2 ^ base * R
  le : 2 ^ base * R ≤ 2 ^ 446
  good : GoodDigits tb L
  num : L.length * (tb + 2) ≤ k
  below : ∀ x ∈ L, x.power + ((tb : ℤ) + 2) ≤ k
  top : ∀ x ∈ L.head?, 0 < x.addend ∨ 0 < R

set_option maxHeartbeats 1000000 in
theorem wnafInner_spec {tb V len w base H : ℕ} (htb : tb ≤ 5) (hlen : 446 / (tb + 1) + 3 ≤ len) (hw : 1 ≤ w) (hb : base = 16 * (w - 1))
    (rest : List SmvtControl) :
    ∀ (fuel : ℕ) (control : List SmvtControl) (position : ℕ) (current : W64) (k : ℕ) (L : List SmvtControl),
      1 ≤ fuel → 17 ≤ fuel + (k - base) → current.toNat ≤ 2 ^ 32 → 2 ^ (k - base) ∣ current.toNat → k ≤ base + 16 + tb + 1 →
      WInv tb V len base position control (current.toNat + 2 ^ 32 * H) k L rest →
      ∃ control' position' current' k' L', wnafInner tb w fuel control position current = .ok (control', position', current') ∧
        current'.toNat ≤ 2 ^ 32 ∧ current'.toNat % 2 ^ 16 = 0 ∧ 2 ^ (k' - base) ∣ current'.toNat ∧ k' ≤ base + 16 + tb + 1 ∧
        WInv tb V len base position' control' (current'.toNat + 2 ^ 32 * H) k' L' rest
  | 0, _, _, _, _, _, h, _, _, _, _, _ => absurd h (by norm_num)
  | fuel + 1, control, position, current, k, L, _, hf, hle, hdvd, hk, hI => by
    by_cases hc : current.toNat % 2 ^ 16 = 0
    · refine ⟨control, position, current, k, L, ?_, hle, hc, hdvd, hk, hI⟩
      rw [wnafInner, if_neg (fun h => ((and_ffff current).mp h) hc)]
      rfl
    · have hC0 : 0 < current.toNat := Nat.pos_of_ne_zero (fun h => hc (by rw [h, Nat.zero_mod]))
      have hk16 : k - base < 16 := by
        by_contra hcon
        exact hc (Nat.mod_eq_zero_of_dvd (dvd_trans (pow_dvd_pow 2 (by omega)) hdvd))
      -- the digit lies at or above `k`
      have hposk : ∀ pos, 2 ^ pos ∣ current.toNat → current.toNat / 2 ^ pos % 2 = 1 → k - base ≤ pos := by
        intro pos h1 h2
        by_contra hcon
        have h3 : 2 ^ (pos + 1) ∣ current.toNat := dvd_trans (pow_dvd_pow 2 (by omega)) hdvd
        obtain ⟨c, hc⟩ := h3
        rw [hc, Nat.pow_succ, Nat.mul_assoc, Nat.mul_div_cancel_left _ (by positivity)] at h2
        omega
      have hpos446 : ∀ pos, 2 ^ pos ∣ current.toNat → base + pos ≤ 446 := by
        intro pos h1
        have h2 : 2 ^ pos ≤ current.toNat + 2 ^ 32 * H := le_trans (Nat.le_of_dvd hC0 h1) (Nat.le_add_right _ _)
        have h3 : 2 ^ (base + pos) ≤ 2 ^ 446 := by
          rw [Nat.pow_add]
          exact le_trans (Nat.mul_le_mul_left _ h2) hI.le
        exact (Nat.pow_le_pow_iff_right (by norm_num)).mp h3
      have hpp : 0 < position := by
        obtain ⟨pos, h1, h2, h3⟩ := trailing_zeroes_spec (lo32 current) (by
          rw [toNat_lo32]
          intro h
          apply hc
          omega)
        have hlo : (lo32 current).toNat = current.toNat := by
          rw [toNat_lo32, Nat.mod_eq_of_lt]
          omega
        rw [hlo] at h2 h3
        have g1 := hposk _ h2 h3
        have g2 := hpos446 _ h2
        have g3 : L.length * (tb + 1) ≤ 446 := by
          have := hI.num
          have : L.length * (tb + 1) ≤ L.length * (tb + 2) := Nat.mul_le_mul_left _ (by omega)
          omega
        have g4 : L.length ≤ 446 / (tb + 1) := (Nat.le_div_iff_mul_le (by omega)).mpr g3
        have := hI.pos
        omega
      have hpl : position < control.length := by
        have := hI.pos
        rw [hI.len]
        omega
      obtain ⟨pos, current', p1, p2, p3, p4, p5⟩ := wnafInner_step (w := w) (fuel := fuel) htb hc hle hpp hpl
      obtain ⟨d1, d2, d3, d4⟩ := wdigit_spec (tb := tb) p3
      generalize wdigit tb (current.toNat / 2 ^ pos) = d at *
      have hdec : (current.toNat : ℤ) = 2 ^ pos * ((current.toNat / 2 ^ pos : ℕ) : ℤ) := by
        exact_mod_cast (Nat.mul_div_cancel' p2).symm
      have hp2 : (0 : ℤ) < 2 ^ pos := by positivity
      have hdv : (2 : ℤ) ^ (pos + (tb + 2)) ∣ (current'.toNat : ℤ) := by
        obtain ⟨j, hj⟩ := d1
        refine ⟨j, ?_⟩
        rw [p4, pow_add, mul_assoc, ← hj, mul_sub, ← hdec]
        ring
      have hdvn : 2 ^ (pos + (tb + 2)) ∣ current'.toNat := by exact_mod_cast hdv
      have h32 : (2 : ℤ) ^ 32 = 2 ^ (pos + (tb + 2)) * 2 ^ (32 - (pos + (tb + 2))) := by
        rw [← pow_add]; congr 1; omega
      have e1 : (2 : ℤ) ^ (pos + tb + 1) = 2 ^ (tb + 1) * 2 ^ pos := by ring
      have hb1 := (digit_bound (x := current.toNat) (x' := current'.toNat) (m := pos + tb + 1) (N := 32)
        (by rw [show pos + tb + 1 + 1 = pos + (tb + 2) by ring]; exact hdv) (by rw [p4, e1]; nlinarith) (by rw [p4, e1]; nlinarith) (by positivity)).2
        (by exact_mod_cast hle)
      have hRR : ((current'.toNat + 2 ^ 32 * H : ℕ) : ℤ) = ((current.toNat + 2 ^ 32 * H : ℕ) : ℤ) - d * 2 ^ pos := by
        push_cast
        rw [p4]
        ring
      have hg1 := hposk _ p2 p3
      have hg2 := hpos446 _ p2
      have hb2 : current'.toNat + 2 ^ 32 * H ≤ 2 ^ (446 - base) := by
        have hR : current.toNat + 2 ^ 32 * H ≤ 2 ^ (446 - base) := by
          have := hI.le
          rw [show (446 : ℕ) = base + (446 - base) by omega, Nat.pow_add] at this
          exact Nat.le_of_mul_le_mul_left this (by positivity)
        have := (digit_bound (x := ((current.toNat + 2 ^ 32 * H : ℕ) : ℤ)) (x' := ((current'.toNat + 2 ^ 32 * H : ℕ) : ℤ)) (m := pos + tb + 1) (N := 446 - base)
          (by
            rw [show pos + tb + 1 + 1 = pos + (tb + 2) by ring, Nat.cast_add, Nat.cast_mul, Nat.cast_pow, Nat.cast_ofNat, h32, mul_assoc]
            exact dvd_add hdv (Dvd.intro _ rfl)) (by rw [hRR, e1]; nlinarith) (by rw [hRR, e1]; nlinarith) (by positivity)).2
          (by exact_mod_cast hR)
        exact_mod_cast this
      have hwz : ((w - 1 : ℕ) : ℤ) = (w : ℤ) - 1 := by push_cast [hw]; ring
      have hpw : (pos : ℤ) + 16 * ((w : ℤ) - 1) = ((base + pos : ℕ) : ℤ) := by rw [← hwz, hb]; push_cast; ring
      have hI' : WInv tb V len base (position - 1) (control.set position ⟨(pos : ℤ) + 16 * ((w : ℤ) - 1), d⟩) (current'.toNat + 2 ^ 32 * H)
          (base + pos + tb + 2) (⟨(pos : ℤ) + 16 * ((w : ℤ) - 1), d⟩ :: L) rest := by
        constructor
        · rw [List.length_set]; exact hI.len
        · rw [show position - 1 + 1 = position by omega]
          rw [List.drop_eq_getElem_cons (by rw [List.length_set]; exact hpl)]
          rw [List.getElem_set_self, List.drop_set_of_lt (by omega), hI.drop]
          rfl
        · have := hI.pos
          simp only [List.length_cons]
          omega
        · rw [digitsVal, hI.val, hRR, hpw, Int.toNat_natCast]
          push_cast
          ring
        · calc 2 ^ base * (current'.toNat + 2 ^ 32 * H) ≤ 2 ^ base * 2 ^ (446 - base) := Nat.mul_le_mul_left _ hb2
            _ = 2 ^ 446 := by rw [← Nat.pow_add]; congr 1; omega
        · constructor
          · intro x hx
            rcases List.mem_cons.mp hx with rfl | hx
            · exact ⟨d4, d3, d2, by rw [hpw]; positivity⟩
            · exact hI.good.digit x hx
          · refine List.Pairwise.cons ?_ hI.good.spaced
            intro y hy
            have := hI.below y hy
            rw [hpw]
            push_cast
            omega
        · simp only [List.length_cons]
          have := hI.num
          rw [Nat.succ_mul]
          omega
        · intro x hx
          rcases List.mem_cons.mp hx with rfl | hx
          · rw [hpw]; push_cast; omega
          · have := hI.below x hx
            push_cast
            omega
        · intro x hx
          simp only [List.head?_cons, Option.mem_def, Option.some.injEq] at hx
          subst hx
          by_cases hd : 0 < d
          · exact Or.inl hd
          · right
            have : (0 : ℤ) < current'.toNat := by
              rw [p4]
              have h1 : (0 : ℤ) < current.toNat := by exact_mod_cast hC0
              have h2 := mul_nonpos_of_nonpos_of_nonneg (not_lt.mp hd) hp2.le
              linarith
            have : 0 < current'.toNat := by exact_mod_cast this
            omega
      obtain ⟨control', position', current'', k', L', q1, q2⟩ := wnafInner_spec htb hlen hw hb rest fuel _ _ current' (base + pos + tb + 2) _
        (by omega) (by omega) (by exact_mod_cast hb1) (by rw [show base + pos + tb + 2 - base = pos + (tb + 2) by omega]; exact hdvn) (by omega) hI'
      exact ⟨control', position', current'', k', L', by rw [p5]; exact q1, q2⟩

end Ed448
