import Verif.Spec.WeakKeys
import Verif.Properties.DecoderCount
import Verif.Properties.OffCurve
import Verif.Properties.SameKey
import Verif.Properties.Binding

/-!
# C103: the complete list of the keys under which everybody can sign
-/

set_option exponentiation.threshold 1000

namespace Ed448

theorem mem_weakKeys {b : List Byte} : b ∈ weakKeys ↔ ∃ y s, (y = 0 ∨ y = 1 ∨ y = p - 1 ∨ y = p ∨ y = p + 1) ∧ s < 2 ∧ b = keyString (y, s) := by
  have e0 : ∀ y, leBytes 56 y ++ [0x00#8] = keyString (y, 0) := fun y => rfl
  have e1 : ∀ y, leBytes 56 y ++ [0x80#8] = keyString (y, 1) := fun y => rfl
  simp only [weakKeys, List.mem_flatMap, List.mem_cons, List.not_mem_nil, or_false, e0, e1]
  constructor
  · rintro ⟨y, hy, h | h⟩
    · exact ⟨y, 0, hy, by omega, h⟩
    · exact ⟨y, 1, hy, by omega, h⟩
  · rintro ⟨y, s, hy, hs, rfl⟩
    refine ⟨y, hy, ?_⟩
    obtain rfl | rfl : s = 0 ∨ s = 1 := by omega
    · exact .inl rfl
    · exact .inr rfl

theorem p_bounds : 2 ^ 447 < p ∧ p + 1 < 2 ^ 448 ∧ 2 ^ 448 < 2 * p - 1 := by rw [p_def]; decide +kernel

/-- A number below 2^448 with a given residue. -/
theorem residue_cases {n r : ℕ} (hn : n < 2 ^ 448) (hr : r < p) (h : (n : F) = (r : F)) : n = r ∨ n = r + p := by
  have hb := p_bounds
  rw [ZMod.natCast_eq_natCast_iff', Nat.mod_eq_of_lt hr] at h
  generalize (2 : ℕ) ^ 448 = N at *
  by_cases h1 : n < p
  · left
    rwa [Nat.mod_eq_of_lt h1] at h
  · right
    rw [Nat.mod_eq_sub_mod (by omega), Nat.mod_eq_of_lt (by omega)] at h
    omega

theorem imageZ_T4 {x : F} (h : x * x = 1) : ¬ LowZero (imageZ x 0) := by
  have e : imageZ x 0 = -1 := by
    rw [imageZ]
    linear_combination (x ^ 2 + 1 - 2) * h
  rw [e, LowZero, show (-1 : F) = ((p - 1 : ℕ) : F) by
    rw [Nat.cast_sub (by have := p_bounds; omega), ZMod.natCast_self, Nat.cast_one, zero_sub], ZMod.val_cast_of_lt (by have := p_bounds; omega), p_def]
  decide +kernel

/-- C103. The strings that the decoder accepts and that describe points of order 1, 2 or 4 are these ten. -/
theorem C103_list (b : List Byte) : b ∈ weakKeys ↔ Accepted b ∧ ∃ T : E, Decodes b T ∧ 4 • T = 0 := by
  have hb := p_bounds
  rw [mem_weakKeys]
  constructor
  · rintro ⟨y, s, hy, hs, rfl⟩
    have hy' : y < 2 ^ 448 := by
      generalize (2 : ℕ) ^ 448 = N at *
      generalize (2 : ℕ) ^ 447 = M at *
      omega
    obtain ⟨k1, k2, k3, k4⟩ := keyString_parts hy' hs
    have zero : ∀ T : E, T.x = 0 → T.y = (y : F) → 4 • T = 0 → Accepted (keyString (y, s)) ∧ ∃ T : E, Decodes (keyString (y, s)) T ∧ 4 • T = 0 := by
      intro T h1 h2 h3
      have h := C32_sign_of_zero _ T k1 k2 h1 (by rw [k4]; exact h2)
      exact ⟨h.1, T, h.2, h3⟩
    have four : ((y : ℕ) : F) = 0 → PassesCheck y → Accepted (keyString (y, s)) ∧ ∃ T : E, Decodes (keyString (y, s)) T ∧ 4 • T = 0 := by
      intro h1 h2
      obtain ⟨T, t1, t2, t3⟩ : ∃ T : E, Decodes (keyString (y, s)) T ∧ 4 • T = 0 ∧ T.y = 0 ∧ T.x * T.x = 1 := by
        obtain rfl | rfl : s = 0 ∨ s = 1 := by omega
        · refine ⟨-T4, ⟨?_, .inr ?_⟩, by rw [smul_neg, four_T4, neg_zero], ?_, ?_⟩
          · rw [k4, h1]; rfl
          · rw [k3, Edw.neg_x]
            show (-1 : F).val % 2 = 0
            rw [show (-1 : F) = ((p - 1 : ℕ) : F) by
              rw [Nat.cast_sub (by omega), ZMod.natCast_self, Nat.cast_one, zero_sub], ZMod.val_cast_of_lt (by omega), p_def]
            decide +kernel
          · rfl
          · rw [Edw.neg_x]
            show (-1 : F) * -1 = 1
            ring
        · refine ⟨T4, ⟨?_, .inr ?_⟩, four_T4, rfl, ?_⟩
          · rw [k4, h1]; rfl
          · rw [k3]
            show (1 : F).val % 2 = 1
            rw [show (1 : F) = ((1 : ℕ) : F) by rw [Nat.cast_one], ZMod.val_cast_of_lt (by omega)]
          · show (1 : F) * 1 = 1
            ring
      refine ⟨(accepted_iff_of_point t1).mpr ⟨k1, k2, by rwa [k4], ?_⟩, T, t1, t2⟩
      rw [t3.1]
      exact imageZ_T4 t3.2
    have h428 : 2 ^ 428 ≤ p := by rw [p_def]; decide +kernel
    rcases hy with rfl | rfl | rfl | rfl | rfl
    · exact four Nat.cast_zero (by decide +kernel)
    · exact zero 0 rfl (by rw [Nat.cast_one]; rfl) (smul_zero 4)
    · refine zero T2 rfl ?_ ?_
      · rw [Nat.cast_sub (by omega), ZMod.natCast_self, Nat.cast_one, zero_sub]
        rfl
      · rw [show 4 = 2 * 2 from rfl, mul_smul, two_smul, two_smul, T2_double, add_zero]
    · exact four (ZMod.natCast_self p) (passesCheck_of_ge h428 hy')
    · exact zero 0 rfl (by rw [Nat.cast_add, ZMod.natCast_self, Nat.cast_one, zero_add]; rfl) (smul_zero 4)
  · rintro ⟨ha, T, hd, hT⟩
    have hlt := yNat_lt ha.1
    refine ⟨yNat b, signBit b, ?_, signBit_lt b, (keyString_of ha.1 ha.2.1).symm⟩
    have hy := hd.1
    rcases torsion_cases hT with ⟨_, h⟩ | ⟨h, _⟩
    · have h1 : (T.y - 1) * (T.y + 1) = 0 := by linear_combination h
      rcases mul_eq_zero.mp h1 with h2 | h2
      · have h3 : (yNat b : F) = ((1 : ℕ) : F) := by rw [← hy, Nat.cast_one]; linear_combination h2
        have := residue_cases hlt (by omega) h3
        omega
      · have h3 : (yNat b : F) = ((p - 1 : ℕ) : F) := by
          rw [← hy, Nat.cast_sub (by omega), ZMod.natCast_self, Nat.cast_one]
          linear_combination h2
        have := residue_cases hlt (by omega) h3
        generalize (2 : ℕ) ^ 448 = N at *
        generalize (2 : ℕ) ^ 447 = M at *
        omega
    · have h3 : (yNat b : F) = ((0 : ℕ) : F) := by rw [← hy, Nat.cast_zero, h]
      have := residue_cases hlt (by omega) h3
      omega

/-- C103. The ten strings are different, and the one with 57 zeros is among them. -/
theorem C103_ten : weakKeys.Nodup ∧ weakKeys.length = 10 ∧ List.replicate 57 0 ∈ weakKeys := by
  refine ⟨?_, rfl, ?_⟩
  · rw [weakKeys, ← pN_eq]
    decide +kernel
  · rw [mem_weakKeys]
    exact ⟨0, 0, .inl rfl, by omega, by decide +kernel⟩

/-- C103. Under the nine others one and the same signature is accepted for every message and every hash function. -/
theorem C103_everybody (pk : List Byte) (h : pk ∈ weakKeys) (hz : pk ≠ List.replicate 57 0) (xof : Xof) (m : List Byte) :
    ed448_verify xof pk (encodePoint B ++ leBytes 57 1) m = .ok (.ok true) := by
  obtain ⟨ha, T, hd, hT⟩ := (C103_list pk).mp h
  have := C42_small_order xof pk m T hT ha hd hz 1 (by norm_num) (by rw [one_smul]; exact Witness.B_accepted)
  rwa [one_smul] at this

/-- C103. The one with 57 zeros is refused, with every signature and every message. The same point can be given as the number p with a clear sign bit, and so it is accepted. -/
theorem C103_refused (xof : Xof) (m : List Byte) : (∀ sig, ed448_verify xof (List.replicate 57 0) sig m = .ok (.error .InvalidSignatureError)) ∧
    Decodes (List.replicate 57 0) (-T4) ∧ Decodes (leBytes 56 p ++ [0x00]) (-T4) ∧
    ed448_verify xof (leBytes 56 p ++ [0x00]) (encodePoint B ++ leBytes 57 1) m = .ok (.ok true) := by
  have hb := p_bounds
  have hx : (-T4 : E).x.val % 2 = 0 := by
    rw [Edw.neg_x]
    show (-1 : F).val % 2 = 0
    rw [show (-1 : F) = ((p - 1 : ℕ) : F) by
      rw [Nat.cast_sub (by omega), ZMod.natCast_self, Nat.cast_one, zero_sub], ZMod.val_cast_of_lt (by omega), p_def]
    decide +kernel
  have h1 : signBit (leBytes 56 p ++ [0x00]) = 0 ∧ yNat (leBytes 56 p ++ [0x00]) = p := (keyString_parts (y := p) (s := 0) (by omega) (by omega)).2.2
  refine ⟨fun sig => C13_zero_rejected xof _ sig m (.inl rfl), ⟨?_, .inr ?_⟩, ⟨?_, .inr ?_⟩, C103_everybody _ ?_ ?_ xof m⟩
  · rw [show yNat (List.replicate 57 0) = 0 by decide +kernel, Nat.cast_zero]
    rfl
  · rw [hx]
    decide +kernel
  · rw [h1.2, ZMod.natCast_self]
    rfl
  · rw [hx, h1.1]
  · exact mem_weakKeys.mpr ⟨p, 0, .inr (.inr (.inr (.inl rfl))), by omega, rfl⟩
  · exact ne_zeros_of_yNat (by rw [h1.2]; omega)

/-- C103. For every other key that describes a point, R and S fit, in the equation of RFC 8032, exactly one challenge modulo q if any; so no signature satisfies it for every challenge. The
ten strings are exactly the accepted ones for which a signature does. -/
theorem C103_others (pk : List Byte) (A : E) (ha : Accepted pk) (hd : Decodes pk A) :
    (pk ∈ weakKeys ↔ ∃ (R : E) (S : ℕ), ∀ c, RFC.Equation S R A c) ∧
    (pk ∉ weakKeys → ∀ (R : E) (S c c' : ℕ), RFC.Equation S R A c → RFC.Equation S R A c' → c % q = c' % q) := by
  have hw : pk ∈ weakKeys ↔ 4 • A = 0 := by
    rw [C103_list]
    exact ⟨fun ⟨_, T, h1, h2⟩ => by rw [hd.unique h1]; exact h2, fun h => ⟨ha, A, hd, h⟩⟩
  have hu : pk ∉ weakKeys → ∀ (R : E) (S c c' : ℕ), RFC.Equation S R A c → RFC.Equation S R A c' → c % q = c' % q :=
    fun h R S c c' h1 h2 => (C65_equation S R A c c' (fun h' => h (hw.mpr h')) h1).mp h2
  refine ⟨⟨fun h => ⟨B, 1, fun c => ?_⟩, fun ⟨R, S, h⟩ => ?_⟩, hu⟩
  · rw [RFC.Equation, one_smul, smul_comm 4 c A, hw.mp h, smul_zero, add_zero]
  · by_contra hn
    have h1 := hu hn R S 0 1 (h 0) (h 1)
    rw [Nat.zero_mod, Nat.mod_eq_of_lt (by rw [q_def]; decide +kernel)] at h1
    cases h1

/-- C103. The public key of a private key is one of these ten strings exactly if the secret scalar is 4q. -/
theorem C103_derived (xof : Xof) (k pk : Arr Byte 57) (h : ed448_derive_public xof k = .ok pk) : pk.1 ∈ weakKeys ↔ keyScalar xof k.1 = 4 * q := by
  obtain ⟨pk', h1, h2⟩ := derive_spec xof k
  obtain rfl := Except.ok.inj (h.symm.trans h1)
  rw [h2]
  constructor
  · intro hw
    obtain ⟨_, T, d1, d2⟩ := (C103_list _).mp hw
    rw [← (decodes_encode _).unique d1] at d2
    have hz : keyScalar xof k.1 • B = 0 := by
      by_contra hne
      exact four_smul_B_ne hne d2
    rw [← zero_smul ℕ B, smul_B_inj, Nat.zero_mod] at hz
    have hn : RFC.secretScalar Witness.neutralKey.1 = 4 * q := (C48_neutral_key xof Witness.neutralKey (by decide +kernel)).2.2
    obtain ⟨l, hl⟩ : ∃ l, keyScalar xof k.1 = RFC.secretScalar l := by
      rw [keyScalar]
      split
      · exact ⟨_, rfl⟩
      · exact ⟨_, rfl⟩
    rw [hl] at hz ⊢
    rw [← hn]
    apply secretScalar_inj
    rw [hn, hz, Nat.mul_mod_left]
  · intro e
    rw [e, mul_smul, q_smul_B, smul_zero]
    exact (C103_list _).mpr ⟨Witness.zero_accepted, 0, decodes_encode 0, smul_zero 4⟩

/-- There is a key with this scalar. -/
example (xof : Xof) : keyScalar xof Witness.neutralKey.1 = 4 * q := by
  have h1 : signBit Witness.neutralKey.1 = 1 := by decide +kernel
  rw [keyScalar, if_neg (by rw [h1]; decide)]
  exact (C48_neutral_key xof Witness.neutralKey h1).2.2

/-- The base point as key is not on the list; the neutral element is. -/
example : encodePoint B ∉ weakKeys ∧ encodePoint 0 ∈ weakKeys := by
  constructor
  · intro h
    obtain ⟨_, T, h1, h2⟩ := (C103_list _).mp h
    rw [← (decodes_encode B).unique h1] at h2
    have := four_smul_B_ne (n := 1) (by rw [one_smul]; exact B_ne_zero)
    rw [one_smul] at this
    exact this h2
  · exact (C103_list _).mpr ⟨Witness.zero_accepted, 0, decodes_encode 0, smul_zero 4⟩

end Ed448
