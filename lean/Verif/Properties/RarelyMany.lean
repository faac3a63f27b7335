import Verif.Properties.ManyUsers
import Verif.Properties.Rarely
import Verif.Properties.Aliases

/-!
# C90 for many users; C103 and C104 for random keys
-/

set_option exponentiation.threshold 1000

namespace Ed448

/-- C90 with `N` users: private keys chosen at random, independently, and a random hash function. With a chance of at least `1 - 129 N (n + 3) / 2^39`, all signatures of
all users, of up to `n` given messages each, verify under the public keys of their makers. -/
theorem C90_users {N : ℕ} (L n : ℕ) (ms : Fin N → List (List Byte)) (hn : ∀ i, (ms i).length ≤ n) (hL : ∀ i, ∀ m ∈ ms i, 124 + m.length ≤ L) :
    chance {x : (Fin N → Fin 57 → Byte) × (Short L → Out) | ∃ i, ¬ ∀ m ∈ ms i, ∃ A sig, ed448_derive_public (hashOf x.2) (keyOf (x.1 i)) = .ok A ∧
      ed448_sign (hashOf x.2) (keyOf (x.1 i)) m = .ok sig ∧ ed448_verify (hashOf x.2) A.1 sig.1 m = .ok (.ok true)} ≤ N * (129 * (n + 3) / 2 ^ 39) := by
  have h := chance_exists (α := (Fin N → Fin 57 → Byte) × (Short L → Out)) (ι := Fin N)
    (fun i x => ¬ ∀ m ∈ ms i, ∃ A sig, ed448_derive_public (hashOf x.2) (keyOf (x.1 i)) = .ok A ∧
      ed448_sign (hashOf x.2) (keyOf (x.1 i)) m = .ok sig ∧ ed448_verify (hashOf x.2) A.1 sig.1 m = .ok (.ok true)) (129 * (n + 3) / 2 ^ 39) fun i => ?_
  · rwa [Fintype.card_fin] at h
  · refine (chance_one_of i (fun _ k f => ¬ ∀ m ∈ ms i, ∃ A sig, ed448_derive_public (hashOf f) (keyOf k) = .ok A ∧
      ed448_sign (hashOf f) (keyOf k) m = .ok sig ∧ ed448_verify (hashOf f) A.1 sig.1 m = .ok (.ok true)) (fun _ _ => rfl) _ fun _ => C90_verifies L (ms i) (hL i)).trans ?_
    have h1 : ((ms i).length : ℚ) ≤ n := by exact_mod_cast hn i
    gcongr

/-- A million users with a hundred messages each: all signatures verify with a chance of more than 97 percent. -/
example : ((1000000 : ℕ) : ℚ) * (129 * ((100 : ℕ) + 3) / 2 ^ 39) < 3 / 100 := by norm_num

/-- C103. The public key of a random private key is one of the ten weak ones with a chance of at most `1 / 2^445`. -/
theorem C103_random (L : ℕ) (hL : 57 ≤ L) :
    chance {x : (Fin 57 → Byte) × (Short L → Out) | ∃ A, ed448_derive_public (hashOf x.2) (keyOf x.1) = .ok A ∧ A.1 ∈ weakKeys} ≤ 1 / 2 ^ 445 := by
  have h := chance_keyScalar (L := L) hL {0}
  rw [Finset.card_singleton, Nat.cast_one, one_mul] at h
  refine (chance_imp fun x hx => ?_).trans h
  obtain ⟨A, h1, h2⟩ := hx
  rw [(C103_derived _ _ _ h1).mp h2, Nat.mul_mod_left, Finset.mem_singleton]

/-- The scalars whose multiples of the base point have a small y coordinate. -/
theorem few_small_y : ((Finset.range q).filter fun s => (s • B).y.val ≤ 2 ^ 224).card ≤ 2 ^ 225 + 2 := by
  have h : ((Finset.range q).filter fun s => (s • B).y.val ≤ 2 ^ 224).card ≤ (Finset.range (2 ^ 224 + 1) ×ˢ Finset.range 2).card := by
    refine Finset.card_le_card_of_injOn (fun s => ((s • B).y.val, (s • B).x.val % 2)) ?_ ?_
    · intro s hs
      rw [Finset.mem_coe, Finset.mem_filter] at hs
      rw [Finset.mem_coe, Finset.mem_product, Finset.mem_range, Finset.mem_range]
      exact ⟨Nat.lt_succ_of_le hs.2, Nat.mod_lt _ (by norm_num)⟩
    · intro s hs s' hs' he
      rw [Finset.mem_coe, Finset.mem_filter, Finset.mem_range] at hs hs'
      obtain ⟨e1, e2⟩ := Prod.mk.inj he
      have hd : RFC.DecodesTo (encodePoint (s • B)) (s • B) := decodesTo_iff.mpr rfl
      have hd' : RFC.DecodesTo (encodePoint (s • B)) (s' • B) := by
        refine ⟨hd.1, hd.2.1, hd.2.2.1, ?_, ?_⟩
        · rw [← hd.2.2.2.1]
          exact ZMod.val_injective p e1.symm
        · rw [← hd.2.2.2.2]
          exact e2.symm
      have e := decodesTo_iff.mp hd'
      rwa [encodePoint_inj, smul_B_inj, Nat.mod_eq_of_lt hs.1, Nat.mod_eq_of_lt hs'.1] at e
  rw [Finset.card_product, Finset.card_range, Finset.card_range] at h
  refine h.trans (le_of_eq ?_)
  norm_num

/-- C104. The public key of a random private key can be given by another string with a chance of at most `1 / 2^219`. -/
theorem C104_random (L : ℕ) (hL : 57 ≤ L) :
    chance {x : (Fin 57 → Byte) × (Short L → Out) | ∃ A, ed448_derive_public (hashOf x.2) (keyOf x.1) = .ok A ∧
      ∃ b P, b ≠ A.1 ∧ Accepted b ∧ Decodes b P ∧ Decodes A.1 P} ≤ 1 / 2 ^ 219 := by
  have h := chance_keyScalar (L := L) hL ((Finset.range q).filter fun s => (s • B).y.val ≤ 2 ^ 224)
  have hc : ((((Finset.range q).filter fun s => (s • B).y.val ≤ 2 ^ 224).card : ℕ) : ℚ) ≤ 2 ^ 225 + 2 := by exact_mod_cast few_small_y
  refine (chance_imp fun x hx => ?_).trans (h.trans ?_)
  · obtain ⟨A, h1, b, P, h2, h3, h4, h5⟩ := hx
    obtain ⟨A', h1', e⟩ := derive_spec (hashOf x.2) (keyOf x.1)
    obtain rfl := Except.ok.inj (h1.symm.trans h1')
    rw [Finset.mem_filter, Finset.mem_range, smul_B_mod]
    refine ⟨Nat.mod_lt _ q_pos, ?_⟩
    generalize keyScalar (hashOf x.2) (keyOf x.1).1 = s at *
    rw [e] at h5
    obtain rfl := (decodes_encode (s • B)).unique h5
    have hcan : ¬ (yNat b < p ∧ ((s • B).x = 0 → signBit b = 0)) := fun hh => h2 (by rw [e]; exact (C104_canonical b _ h3 h4).mpr hh)
    by_cases hy : yNat b < p
    · have hx0 : (s • B).x = 0 := by
        by_contra hne
        exact hcan ⟨hy, fun h => absurd h hne⟩
      have h0 : s • B = 0 := by
        by_contra hne
        refine four_smul_B_ne hne ?_
        have hy2 : ((s • B).y - 1) * ((s • B).y + 1) = 0 := by
          have := (s • B).on
          rw [hx0] at this
          linear_combination this
        rcases mul_eq_zero.mp hy2 with h6 | h6
        · have : s • B = 0 := Edw.ext hx0 (by rw [show (s • B).y = 1 by linear_combination h6]; rfl)
          exact absurd this hne
        · have : s • B = T2 := Edw.ext hx0 (by rw [show (s • B).y = -1 by linear_combination h6]; rfl)
          rw [this, show 4 = 2 * 2 from rfl, mul_smul, two_smul, two_smul, T2_double, add_zero]
      rw [h0]
      show (1 : F).val ≤ 2 ^ 224
      have := p_bounds
      rw [show (1 : F) = ((1 : ℕ) : F) by rw [Nat.cast_one], ZMod.val_cast_of_lt (by omega)]
      norm_num
    · have h6 := p_plus
      have h7 := yNat_lt h3.1
      have h8 := p_bounds
      rw [h4.1, ZMod.val_natCast, Nat.mod_eq_sub_mod (by omega), Nat.mod_eq_of_lt (by omega)]
      omega
  · refine (mul_le_mul_of_nonneg_right hc (by positivity)).trans ?_
    norm_num

/-- The public key of the direct-secret key with the scalar 4q is weak and has four strings. -/
example (xof : Xof) : ∃ A, ed448_derive_public xof Witness.neutralKey = .ok A ∧ A.1 ∈ weakKeys ∧ Set.ncard {b | Accepted b ∧ Decodes b 0} = 4 := by
  have h1 : signBit Witness.neutralKey.1 = 1 := by decide +kernel
  have h2 : keyScalar xof Witness.neutralKey.1 = 4 * q := by
    rw [keyScalar, if_neg (by rw [h1]; decide)]
    exact (C48_neutral_key xof Witness.neutralKey h1).2.2
  obtain ⟨A, a1, _⟩ := derive_spec xof Witness.neutralKey
  exact ⟨A, a1, (C103_derived _ _ _ a1).mpr h2, (C104_most 0).2.2.mpr rfl⟩

end Ed448
