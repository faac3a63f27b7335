import Verif.Properties.Leak

/-!
# C77: from the record of the accesses to the secret
-/

set_option exponentiation.threshold 1000

namespace Ed448

open Leak

/-- The column of the comb to which a bit belongs. -/
def combColumn (b : ℕ) : ℕ := b % 18 + 18 * (b / 90)

theorem bits_sum (h : ℕ) : ∀ n, h % 2 ^ n = ∑ b ∈ Finset.range n, if h.testBit b then 2 ^ b else 0
  | 0 => by simp [Nat.mod_one]
  | n + 1 => by
    rw [Nat.mod_pow_succ, bits_sum h n, Finset.sum_range_succ, Nat.testBit_eq_decide_div_mod_eq]
    have := Nat.mod_lt (h / 2 ^ n) two_pos
    rcases (by omega : h / 2 ^ n % 2 = 0 ∨ h / 2 ^ n % 2 = 1) with e | e <;> simp [e]

/-- Numbers with the same positions differ in complete columns. -/
theorem comb_columns {h h' : ℕ} (e : combPositions h = combPositions h') (b : ℕ) (hb : b < 450) :
    (h.testBit b ^^ h'.testBit b) =
      (h.testBit (b % 18 + 90 * (b / 90) + 72) ^^ h'.testBit (b % 18 + 90 * (b / 90) + 72)) := by
  by_cases hk : b % 90 / 18 = 4
  · rw [show b % 18 + 90 * (b / 90) + 72 = b by omega]
  · have h2 := combPosition_inj (combPositions_get e (i := b % 18) (j := b / 90) (by omega) (by omega)) (b % 90 / 18) (by omega)
    rw [show b % 18 + 90 * (b / 90) + 18 * (b % 90 / 18) = b by omega] at h2
    revert h2
    cases h.testBit b <;> cases h'.testBit b <;> cases h.testBit (b % 18 + 90 * (b / 90) + 72) <;>
      cases h'.testBit (b % 18 + 90 * (b / 90) + 72) <;> simp

/-- The sum over the columns `lo`, ..., `lo + 42` that are chosen by `e`. -/
def columnsSum (h : ℕ) (lo : ℕ) (e : Fin 43 → Bool) : ℤ :=
  ∑ b ∈ Finset.range 450, if hc : lo ≤ combColumn b ∧ combColumn b < lo + 43 then
    (if e ⟨combColumn b - lo, by omega⟩ then (if h.testBit b then -2 ^ b else 2 ^ b) else 0) else 0

theorem columns_split {h h' : ℕ} (hh : h < q) (hh' : h' < q) (e : combPositions h = combPositions h') :
    ∃ a c : Fin 43 → Bool, (h' : ℤ) = h + columnsSum h 0 a + columnsSum h 43 c := by
  let d : ℕ → Bool := fun t => h.testBit (t % 18 + 90 * (t / 18) + 72) ^^ h'.testBit (t % 18 + 90 * (t / 18) + 72)
  refine ⟨fun t => d t, fun t => d (t + 43), ?_⟩
  have hs : ∀ {n : ℕ}, n < q → (n : ℤ) = ∑ b ∈ Finset.range 450, if n.testBit b then (2 : ℤ) ^ b else 0 := fun {n} hn => by
    have := bits_sum n 450
    rw [Nat.mod_eq_of_lt (lt_trans hn (lt_trans q_lt (by norm_num)))] at this
    conv_lhs => rw [this]
    push_cast
    rfl
  have hz : ∀ {n : ℕ}, n < q → ∀ b, 446 ≤ b → n.testBit b = false := fun {n} hn b hb =>
    Nat.testBit_lt_two_pow (lt_of_lt_of_le (lt_trans hn q_lt) (Nat.pow_le_pow_right (by norm_num) hb))
  rw [columnsSum, columnsSum, add_assoc, ← Finset.sum_add_distrib, hs hh', hs hh, ← Finset.sum_add_distrib]
  refine Finset.sum_congr rfl fun b hb => ?_
  rw [Finset.mem_range] at hb
  have h1 := comb_columns e b hb
  have hd : (h.testBit b ^^ h'.testBit b) = d (combColumn b) := by
    rw [h1]
    simp only [d, combColumn]
    rw [show (b % 18 + 18 * (b / 90)) % 18 = b % 18 by omega, show (b % 18 + 18 * (b / 90)) / 18 = b / 90 by omega]
  have hc : combColumn b < 86 ∨ d (combColumn b) = false := by
    by_cases h86 : combColumn b < 86
    · exact Or.inl h86
    · right
      simp only [combColumn] at h86
      rw [← hd, h1, hz hh _ (by omega), hz hh' _ (by omega)]
      rfl
  have hx : ∀ D : Bool, (h.testBit b ^^ h'.testBit b) = D → (if h'.testBit b then (2 : ℤ) ^ b else 0) =
      (if h.testBit b then 2 ^ b else 0) + (if D then (if h.testBit b then -2 ^ b else 2 ^ b) else 0) := by
    rintro D rfl
    cases h.testBit b <;> cases h'.testBit b <;> simp
  rw [hx _ hd]
  congr 1
  by_cases h43 : combColumn b < 43
  · rw [dif_pos (by omega), dif_neg (by omega), add_zero]
    rfl
  · rw [dif_neg (by omega), zero_add]
    rcases hc with hc | hc
    · rw [dif_pos (by omega)]
      simp only [Nat.sub_add_cancel (by omega : 43 ≤ combColumn b)]
    · rw [hc]
      have h5 : combColumn b - 43 + 43 = combColumn b := by omega
      simp only [h5, hc, Bool.false_eq_true, if_false, dite_eq_ite, ite_self]

/-- C77. Whoever sees the positions read while a public key is derived, or a message is signed, finds the secret by a search through two lists: there
are two sets of at most `2^43` numbers that depend only on the record, such that the public key of every key with this record is the sum of a multiple
of the base point by a number of the first set and one by a number of the second set; the sum of these two numbers is the secret scalar modulo the group order. -/
theorem C77_two_lists (xof : Xof) (k : Arr Byte 57) : ∃ U V : Finset ℕ, U.card ≤ 2 ^ 43 ∧ V.card ≤ 2 ^ 43 ∧
    ∀ (xof' : Xof) (k' A : Arr Byte 57), signBit k'.1 = signBit k.1 →
      ((Leak.ed448_derive_public xof' k'.1).events = (Leak.ed448_derive_public xof k.1).events ∨
        ∃ m m', m.length = m'.length ∧ (Leak.ed448_sign xof' k'.1 m').events = (Leak.ed448_sign xof k.1 m).events) →
      ed448_derive_public xof' k' = .ok A →
      ∃ u ∈ U, ∃ v ∈ V, keyScalar xof' k'.1 % q = (u + v) % q ∧ A.1 = encodePoint (u • B + v • B) := by
  classical
  obtain ⟨h, g, hh, hg, _⟩ := C64_positions xof k []
  obtain ⟨C, hC⟩ : ∃ C, C = 4 * (2 ^ 450 - 1) * (q - 1) := ⟨_, rfl⟩
  let red : ℤ → ℕ := fun x => (x % q).toNat
  have hred : ∀ x : ℤ, (red x : ℤ) = x % q := fun x => Int.toNat_of_nonneg (Int.emod_nonneg _ (by have := q_pos; omega))
  have hcard : (Finset.univ : Finset (Fin 43 → Bool)).card = 2 ^ 43 := by
    rw [Finset.card_univ, Fintype.card_fun, Fintype.card_bool, Fintype.card_fin]
  obtain ⟨f, hf⟩ : ∃ f : (Fin 43 → Bool) → ℕ, ∀ a, f a = red (8 * (h + columnsSum h 0 a) + C) := ⟨_, fun _ => rfl⟩
  obtain ⟨f', hf'⟩ : ∃ f : (Fin 43 → Bool) → ℕ, ∀ c, f c = red (8 * columnsSum h 43 c) := ⟨_, fun _ => rfl⟩
  obtain ⟨W, hW, hWm⟩ : ∃ W : Finset (Fin 43 → Bool), W.card = 2 ^ 43 ∧ ∀ a, a ∈ W := ⟨_, hcard, Finset.mem_univ⟩
  refine ⟨W.image f, W.image f', hW ▸ Finset.card_image_le, hW ▸ Finset.card_image_le, fun xof' k' A hk he hA => ?_⟩
  obtain ⟨h', g', hh', hg', _⟩ := C64_positions xof' k' []
  have hp : combPositions h = combPositions h' := by
    rcases he with he | ⟨m, m', hm, he⟩
    · exact (C64_distinguish xof xof' k k' [] [] hk.symm rfl h g h' g' hh hg hh' hg').1.1 he.symm
    · obtain ⟨x, hx⟩ := combOf_exists (RFC.nonce xof (keySeed xof k.1) m)
      obtain ⟨x', hx'⟩ := combOf_exists (RFC.nonce xof' (keySeed xof' k'.1) m')
      exact ((C64_distinguish xof xof' k k' m m' hk.symm hm h x h' x' hh hx hh' hx').2.1 he.symm).1
  obtain ⟨a, c, hac⟩ := columns_split hh.1 hh'.1 hp
  refine ⟨f a, Finset.mem_image_of_mem f (hWm a), f' c, Finset.mem_image_of_mem f' (hWm c), ?_⟩
  rw [hf, hf']
  have hn : keyScalar xof' k'.1 % q = (red (8 * (h + columnsSum h 0 a) + C) + red (8 * columnsSum h 43 c)) % q := by
    rw [combOf_number hh', ← hC]
    generalize columnsSum h 0 a = x at *
    generalize columnsSum h 43 c = y at *
    have : ((8 * h' + C : ℕ) : ℤ) % q = ((red (8 * (h + x) + C) + red (8 * y) : ℕ) : ℤ) % q := by
      have e : ((8 * h' + C : ℕ) : ℤ) = 8 * (h + x) + C + 8 * y := by
        rw [Nat.cast_add, Nat.cast_mul, hac]
        push_cast
        ring
      rw [Nat.cast_add (red _), hred, hred, ← Int.add_emod, e]
    exact Int.natCast_inj.mp (by rw [Int.natCast_mod, Int.natCast_mod]; exact this)
  refine ⟨hn, ?_⟩
  obtain ⟨A', a1, a2⟩ := derive_spec xof' k'
  obtain rfl := Except.ok.inj (hA.symm.trans a1)
  rw [a2, ← add_smul, smul_B_inj.mpr hn]

/-- A secret with the same record as the secret `2^447`. -/
def sameRecordKey : Arr Byte 57 :=
  ⟨leBytes 57 (0x800000000000000000000000000000000000000000000000000000000000000000000000000000000000000000000ffffbfffeffffc00010 + 2 ^ 455), by simp⟩

/-- Two different keys with the same record, as in `C77_two_lists`. -/
example (xof : Xof) : sameRecordKey ≠ Witness.key0 ∧ signBit sameRecordKey.1 = signBit Witness.key0.1 ∧
    (Leak.ed448_derive_public xof sameRecordKey.1).events = (Leak.ed448_derive_public xof Witness.key0.1).events := by
  have hs : signBit sameRecordKey.1 = 1 := by decide +kernel
  have hk := hs.trans Witness.key0_sign.symm
  have e1 : keyScalar xof Witness.key0.1 = 2 ^ 447 := by
    rw [keyScalar, if_neg (by rw [Witness.key0_sign]; norm_num), Witness.key0_scalar]
  have e2 : keyScalar xof sameRecordKey.1 =
      0x800000000000000000000000000000000000000000000000000000000000000000000000000000000000000000000ffffbfffeffffc00010 := by
    rw [keyScalar, if_neg (by rw [hs]; norm_num)]
    decide +kernel
  have hc : CombOf (keyScalar xof sameRecordKey.1)
      136282260805426291977998213979000850191307755128872136302779412346473502022336323988800877409444534244245497994745969399048751743630051 := by
    rw [e2]
    unfold CombOf
    rw [q_def]
    decide +kernel
  refine ⟨by decide +kernel, hk, ?_⟩
  obtain ⟨g, hg⟩ := combOf_exists (RFC.nonce xof (keySeed xof sameRecordKey.1) [])
  obtain ⟨g', hg'⟩ := combOf_exists (RFC.nonce xof (keySeed xof Witness.key0.1) [])
  exact (C64_distinguish xof xof sameRecordKey Witness.key0 [] [] hk rfl _ g _ g' hc hg (e1 ▸ comb_key0) hg').1.2 (by decide +kernel)

end Ed448
