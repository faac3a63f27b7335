import Mathlib.Algebra.BigOperators.Intervals
import Mathlib.Data.Set.Card
import Verif.Properties.Decoding

/-!
# C33: how many y coordinates fail the byte check of the decoder, exactly
-/

set_option exponentiation.threshold 1000
set_option linter.constructorNameAsVariable false

namespace Ed448

/-- The carry of the check after 14 digits. -/
def lowCarry (low : ℕ) : ℕ := checkCarry (baseDigits 14 low) (checkWords.take 14) 0

theorem lowCarry_lt (low : ℕ) : lowCarry low < 2 ^ 23 := by
  rw [lowCarry, baseDigits_succ 13, show checkWords.take 14 = checkWords.take 13 ++ [0xffffffff] from rfl,
    checkCarry_append _ _ _ _ _ (by rw [baseDigits_length]; rfl), checkStep]
  have h1 := checkCarry_lt (baseDigits 13 low) (checkWords.take 13) 0 (by norm_num)
  have h2 : low / 2 ^ (28 * 13) % 2 ^ 28 < 2 ^ 28 := Nat.mod_lt _ (by norm_num)
  generalize checkCarry (baseDigits 13 low) (checkWords.take 13) 0 = c at *
  generalize low / 2 ^ (28 * 13) % 2 ^ 28 = u at *
  omega

/-- The number with the digits `low`, `u` and `t`. -/
def ofParts (low u t : ℕ) : ℕ := low + 2 ^ 392 * (u + 2 ^ 28 * t)

theorem ofParts_digits {low u : ℕ} (t : ℕ) (hl : low < 2 ^ 392) (hu : u < 2 ^ 28) :
    ofParts low u t / 2 ^ 392 = u + 2 ^ 28 * t ∧ ofParts low u t % 2 ^ 392 = low ∧ ofParts low u t / 2 ^ 392 % 2 ^ 28 = u ∧ ofParts low u t / 2 ^ 420 = t := by
  have h1 : ofParts low u t / 2 ^ 392 = u + 2 ^ 28 * t := by
    rw [ofParts, Nat.add_mul_div_left _ _ (Nat.pow_pos (by norm_num)), Nat.div_eq_of_lt hl, Nat.zero_add]
  refine ⟨h1, ?_, ?_, ?_⟩
  · rw [ofParts, Nat.add_mul_mod_self_left, Nat.mod_eq_of_lt hl]
  · rw [h1]; omega
  · rw [show 2 ^ 420 = 2 ^ 392 * 2 ^ 28 by rw [← pow_add], ← Nat.div_div_eq_div_mul, h1]; omega

theorem parts_of (y : ℕ) : ofParts (y % 2 ^ 392) (y / 2 ^ 392 % 2 ^ 28) (y / 2 ^ 420) = y := by
  have h : y / 2 ^ 420 = y / 2 ^ 392 / 2 ^ 28 := by rw [show 2 ^ 420 = 2 ^ 392 * 2 ^ 28 by rw [← pow_add], ← Nat.div_div_eq_div_mul]
  rw [ofParts, h, Nat.mod_add_div, Nat.mod_add_div]

/-- When the check fails, in terms of the digits. -/
theorem fails_iff {y : ℕ} (h' : y < 2 ^ 448) :
    ¬ PassesCheck y ↔ y / 2 ^ 420 + 1 + 4 * ((lowCarry (y % 2 ^ 392) + y / 2 ^ 392 % 2 ^ 28 + (2 ^ 32 - 0xffffff)) % 2 ^ 32 / 256) < 256 := by
  have hm : ∀ (k v : ℕ), baseDigits k (v % 2 ^ (28 * k)) = baseDigits k v := by
    intro k
    induction k with
    | zero => intro v; rfl
    | succ k ih =>
      intro v
      rw [baseDigits, baseDigits, show 28 * (k + 1) = 28 + 28 * k by omega, pow_add, Nat.mod_mul_right_div_self, ih, Nat.mod_mul_right_mod]
  have hL : lowCarry (y % 2 ^ 392) = checkCarry (baseDigits 14 y) (checkWords.take 14) 0 := by
    rw [lowCarry, show 392 = 28 * 14 from rfl, hm]
  rw [PassesCheck, not_not, baseDigits_succ 15, show checkWords = checkWords.take 15 ++ [0xffffffff] from rfl,
    checkCarry_append _ _ _ _ _ (by rw [baseDigits_length]; rfl),
    baseDigits_succ 14, show checkWords.take 15 = checkWords.take 14 ++ [0xffffff] from rfl,
    checkCarry_append _ _ _ _ _ (by rw [baseDigits_length]; rfl), hL]
  have h1 := checkCarry_lt (baseDigits 14 y) (checkWords.take 14) 0 (by norm_num)
  generalize checkCarry (baseDigits 14 y) (checkWords.take 14) 0 = c at *
  have h2 : y / 2 ^ 420 < 2 ^ 28 := by
    apply Nat.div_lt_of_lt_mul
    calc y < 2 ^ 448 := h'
      _ = _ := by norm_num
  rw [checkStep, checkStep, show 28 * 15 = 420 from rfl, Nat.mod_eq_of_lt h2]
  generalize y / 2 ^ 420 = t at *
  have h3 : (c + y / 2 ^ (28 * 14) % 2 ^ 28 + (2 ^ 32 - 0xffffff)) % 2 ^ 32 < 2 ^ 32 := Nat.mod_lt _ (by norm_num)
  generalize (c + y / 2 ^ (28 * 14) % 2 ^ 28 + (2 ^ 32 - 0xffffff)) % 2 ^ 32 = w at *
  omega

/-- The choices: 14 digits, and the two others in another form. -/
def failing : Finset (ℕ × ℕ × (Σ _ : ℕ, ℕ)) := Finset.range (2 ^ 392) ×ˢ Finset.range 256 ×ˢ ((Finset.range 64).sigma fun e => Finset.range (255 - 4 * e))

/-- The number that belongs to a choice. -/
def failingNat (x : ℕ × ℕ × (Σ _ : ℕ, ℕ)) : ℕ := ofParts x.1 (256 * x.2.2.1 + x.2.1 + 0xffffff - lowCarry x.1) x.2.2.2

theorem failing_card : failing.card = 129 * 2 ^ 406 := by
  have h : ((Finset.range 64).sigma fun e => Finset.range (255 - 4 * e)).card = 8256 := by
    rw [Finset.card_sigma]
    simp only [Finset.card_range]
    decide +kernel
  rw [failing, Finset.card_product, Finset.card_product, Finset.card_range, Finset.card_range, h]
  norm_num

theorem mem_failing {low r e t : ℕ} : (low, r, (⟨e, t⟩ : Σ _ : ℕ, ℕ)) ∈ failing ↔ low < 2 ^ 392 ∧ r < 256 ∧ e < 64 ∧ t < 255 - 4 * e := by
  rw [failing, Finset.mem_product, Finset.mem_product, Finset.mem_sigma]
  simp only [Finset.mem_range]

theorem failing_image : {y : ℕ | y < 2 ^ 448 ∧ ¬ PassesCheck y} = failingNat '' (failing : Set (ℕ × ℕ × (Σ _ : ℕ, ℕ))) := by
  ext y
  constructor
  · rintro ⟨hy, hf⟩
    have hf := (fails_iff hy).mp hf
    have hc := lowCarry_lt (y % 2 ^ 392)
    have hu : y / 2 ^ 392 % 2 ^ 28 < 2 ^ 28 := Nat.mod_lt _ (by norm_num)
    have hp := parts_of y
    have hl : y % 2 ^ 392 < 2 ^ 392 := Nat.mod_lt _ (Nat.pow_pos (by norm_num))
    generalize y % 2 ^ 392 = low at *
    generalize y / 2 ^ 392 % 2 ^ 28 = u at *
    generalize y / 2 ^ 420 = t at *
    generalize hv : (lowCarry low + u + (2 ^ 32 - 0xffffff)) % 2 ^ 32 = v at *
    refine ⟨(low, v % 256, ⟨v / 256, t⟩), ?_, ?_⟩
    · rw [Finset.mem_coe, mem_failing]
      refine ⟨hl, Nat.mod_lt _ (by norm_num), ?_, ?_⟩ <;> omega
    · show ofParts low (256 * (v / 256) + v % 256 + 0xffffff - lowCarry low) t = y
      rw [show 256 * (v / 256) + v % 256 + 0xffffff - lowCarry low = u by omega, hp]
  · rintro ⟨⟨low, r, ⟨e, t⟩⟩, hx, rfl⟩
    rw [Finset.mem_coe, mem_failing] at hx
    obtain ⟨h1, h2, h3, h4⟩ := hx
    have hc := lowCarry_lt low
    show ofParts low (256 * e + r + 0xffffff - lowCarry low) t < 2 ^ 448 ∧ ¬ PassesCheck (ofParts low (256 * e + r + 0xffffff - lowCarry low) t)
    have hu : 256 * e + r + 0xffffff - lowCarry low < 2 ^ 28 := by omega
    obtain ⟨d1, d2, d3, d4⟩ := ofParts_digits t h1 hu
    have hy : ofParts low (256 * e + r + 0xffffff - lowCarry low) t < 2 ^ 448 := by
      rw [show 2 ^ 448 = 2 ^ 56 * 2 ^ 392 by rw [← pow_add], ← Nat.div_lt_iff_lt_mul (Nat.pow_pos (by norm_num)), d1]
      omega
    refine ⟨hy, (fails_iff hy).mpr ?_⟩
    rw [d2, d3, d4]
    omega

theorem failingNat_inj : Set.InjOn failingNat (failing : Set (ℕ × ℕ × (Σ _ : ℕ, ℕ))) := by
  rintro ⟨low, r, ⟨e, t⟩⟩ hx ⟨low', r', ⟨e', t'⟩⟩ hx' h
  rw [Finset.mem_coe, mem_failing] at hx hx'
  obtain ⟨h1, h2, h3, h4⟩ := hx
  obtain ⟨k1, k2, k3, k4⟩ := hx'
  have hc := lowCarry_lt low
  have hc' := lowCarry_lt low'
  change ofParts low (256 * e + r + 0xffffff - lowCarry low) t = ofParts low' (256 * e' + r' + 0xffffff - lowCarry low') t' at h
  obtain ⟨_, d2, d3, d4⟩ := ofParts_digits (u := 256 * e + r + 0xffffff - lowCarry low) t h1 (by omega)
  obtain ⟨_, d2', d3', d4'⟩ := ofParts_digits (u := 256 * e' + r' + 0xffffff - lowCarry low') t' k1 (by omega)
  rw [h, d2'] at d2
  rw [h, d3'] at d3
  rw [h, d4'] at d4
  subst d2 d4
  have he : e = e' ∧ r = r' := by omega
  obtain ⟨rfl, rfl⟩ := he
  rfl

/-- C33. Exactly `129 · 2^406` of the numbers below `2^448` fail the byte check of the decoder. -/
theorem C33_count_numbers : Set.ncard {y : ℕ | y < 2 ^ 448 ∧ ¬ PassesCheck y} = 129 * 2 ^ 406 := by
  rw [failing_image, failingNat_inj.ncard_image, Set.ncard_coe_finset, failing_card]

/-- C33. Exactly `129 · 2^406` elements of the field, which is about one in `2^35`, fail the byte check. -/
theorem C33_count : Set.ncard {y : F | ¬ PassesCheck y.val} = 129 * 2 ^ 406 ∧ 129 * 2 ^ 406 * 2 ^ 34 < p ∧ p < 129 * 2 ^ 406 * 2 ^ 35 := by
  refine ⟨?_, by rw [p_def]; decide +kernel, by rw [p_def]; decide +kernel⟩
  rw [← C33_count_numbers]
  refine Set.ncard_congr (fun y _ => y.val) ?_ ?_ ?_
  · exact fun y hy => ⟨lt_trans (ZMod.val_lt y) p_lt, hy⟩
  · exact fun y z _ _ h => ZMod.val_injective p h
  · rintro y ⟨h1, h2⟩
    have hp : y < p := by
      by_contra hp
      have h428 : 2 ^ 428 ≤ p := by rw [p_def]; decide +kernel
      exact h2 (passesCheck_of_ge (le_trans h428 (not_lt.mp hp)) h1)
    refine ⟨(y : F), ?_, ZMod.val_cast_of_lt hp⟩
    show ¬ PassesCheck (y : F).val
    rwa [ZMod.val_cast_of_lt hp]

/-- The string of 57 bytes with the number `y` and the sign bit `s`. -/
def keyString (x : ℕ × ℕ) : List Byte := leBytes 56 x.1 ++ [BitVec.ofNat 8 (128 * x.2)]

theorem keyString_parts {y s : ℕ} (hy : y < 2 ^ 448) (hs : s < 2) :
    (keyString (y, s)).length = 57 ∧ padBits (keyString (y, s)) = 0 ∧ signBit (keyString (y, s)) = s ∧ yNat (keyString (y, s)) = y := by
  have hlen : (leBytes 56 y).length = 56 := leBytes_length ..
  have hg : (keyString (y, s)).getD 56 0 = BitVec.ofNat 8 (128 * s) := by
    rw [keyString, List.getD, List.getElem?_append_right (by rw [hlen]), hlen]
    rfl
  refine ⟨by rw [keyString, List.length_append, hlen]; rfl, ?_, ?_, ?_⟩
  · rw [padBits, hg, BitVec.toNat_ofNat]; omega
  · rw [signBit, hg, BitVec.toNat_ofNat]; omega
  · rw [yNat, keyString, List.take_append_of_le_length (by rw [hlen]), List.take_of_length_le (by rw [hlen]), leNat_leBytes,
      show 256 ^ 56 = 2 ^ 448 by norm_num, Nat.mod_eq_of_lt hy]

theorem keyString_of {b : List Byte} (hl : b.length = 57) (hp : padBits b = 0) : keyString (yNat b, signBit b) = b := by
  have h := List.take_append_drop 56 b
  rw [List.drop_eq_getElem_cons (by omega), List.drop_of_length_le (by omega)] at h
  have hg : b.getD 56 0 = b[56] := by simp [List.getD, List.getElem?_eq_getElem (show 56 < b.length by omega)]
  have h2 : leBytes 56 (yNat b) = b.take 56 := by
    refine leNat_inj (by rw [leBytes_length, List.length_take, hl]; rfl) ?_
    rw [leNat_leBytes, show 256 ^ 56 = 2 ^ 448 by norm_num, Nat.mod_eq_of_lt (yNat_lt hl), yNat]
  have h3 : BitVec.ofNat 8 (128 * signBit b) = b[56] := by
    rw [← hg]
    apply BitVec.eq_of_toNat_eq
    rw [BitVec.toNat_ofNat]
    have hlt : (b.getD 56 0).toNat < 256 := BitVec.isLt _
    unfold padBits at hp
    unfold signBit
    omega
  show leBytes 56 (yNat b) ++ [BitVec.ofNat 8 (128 * signBit b)] = b
  rw [h2, h3, h]

/-- C33. Exactly `129 · 2^407` strings of 57 bytes without padding bits fail the byte check. Verification rejects each of them as a key, with
every signature and every message. -/
theorem C33_count_keys : Set.ncard {pk : List Byte | pk.length = 57 ∧ padBits pk = 0 ∧ ¬ PassesCheck (yNat pk)} = 129 * 2 ^ 407 ∧
    ∀ pk ∈ {pk : List Byte | pk.length = 57 ∧ padBits pk = 0 ∧ ¬ PassesCheck (yNat pk)}, ∀ (xof : Xof) (sig m : List Byte),
      ed448_verify xof pk sig m = .ok (.error .DecodePubkeyError) ∨ ZeroInput pk sig := by
  constructor
  · have e : {pk : List Byte | pk.length = 57 ∧ padBits pk = 0 ∧ ¬ PassesCheck (yNat pk)} =
        keyString '' ({y : ℕ | y < 2 ^ 448 ∧ ¬ PassesCheck y} ×ˢ (Finset.range 2 : Set ℕ)) := by
      ext pk
      constructor
      · rintro ⟨h1, h2, h3⟩
        exact ⟨(yNat pk, signBit pk), ⟨⟨yNat_lt h1, h3⟩, Finset.mem_coe.mpr (Finset.mem_range.mpr (signBit_lt pk))⟩, keyString_of h1 h2⟩
      · rintro ⟨⟨y, s⟩, ⟨⟨h1, h2⟩, h3⟩, rfl⟩
        obtain ⟨k1, k2, _, k4⟩ := keyString_parts h1 (Finset.mem_range.mp (Finset.mem_coe.mp h3))
        exact ⟨k1, k2, by rwa [k4]⟩
    have hi : Set.InjOn keyString ({y : ℕ | y < 2 ^ 448 ∧ ¬ PassesCheck y} ×ˢ (Finset.range 2 : Set ℕ)) := by
      rintro ⟨y, s⟩ ⟨⟨h1, _⟩, h3⟩ ⟨y', s'⟩ ⟨⟨h1', _⟩, h3'⟩ h
      obtain ⟨_, _, k3, k4⟩ := keyString_parts h1 (Finset.mem_range.mp (Finset.mem_coe.mp h3))
      obtain ⟨_, _, k3', k4'⟩ := keyString_parts h1' (Finset.mem_range.mp (Finset.mem_coe.mp h3'))
      rw [h, k3'] at k3
      rw [h, k4'] at k4
      exact Prod.ext k4.symm k3.symm
    rw [e, hi.ncard_image, Set.ncard_prod, C33_count_numbers, Set.ncard_coe_finset, Finset.card_range]
    norm_num
  · rintro pk ⟨h1, _, h3⟩ xof sig m
    by_cases hz : ZeroInput pk sig
    · exact .inr hz
    · exact .inl ((C08_errors ..).mpr (Or.inr (Or.inr (Or.inl ⟨hz, h1, fun ha => h3 ha.2.2.1, rfl⟩))))

/-- One of these strings; and a number that passes. -/
example : (∃ pk : List Byte, pk.length = 57 ∧ padBits pk = 0 ∧ ¬ PassesCheck (yNat pk)) ∧ PassesCheck 2 := by
  refine ⟨⟨keyString (failingNat (5, 3, ⟨1, 2⟩), 1), ?_⟩, by decide +kernel⟩
  decide +kernel

end Ed448
