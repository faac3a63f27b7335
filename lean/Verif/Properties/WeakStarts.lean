import Verif.Properties.WeakKeys
import Verif.Properties.Interop
import Verif.Properties.Distinct

/-!
# C105: signatures that start with a weak string
-/

set_option exponentiation.threshold 1000

namespace Ed448

/-- C105. The first half of a signature made by the library is one of the ten weak strings exactly if its nonce is a multiple of q, and then it is the encoding of
the neutral element and the second half is the product of the challenge and the secret scalar modulo q. -/
theorem C105_made (xof : Xof) (k A : Arr Byte 57) (m : List Byte) (sig : Arr Byte 114) (hA : ed448_derive_public xof k = .ok A)
    (h : ed448_sign xof k m = .ok sig) :
    (sig.1.take 57 ∈ weakKeys ↔ RFC.nonce xof (keySeed xof k.1) m % q = 0) ∧
    (sig.1.take 57 ∈ weakKeys → sig.1.take 57 = encodePoint 0 ∧
      leNat (sig.1.drop 57) = RFC.challenge xof (encodePoint 0) A.1 m * keyScalar xof k.1 % q) := by
  obtain ⟨_, h2, h3, h4⟩ := sign_parts hA h
  have hw : sig.1.take 57 ∈ weakKeys ↔ RFC.nonce xof (keySeed xof k.1) m • B = 0 := by
    rw [h2]
    constructor
    · intro hw
      obtain ⟨_, T, d1, d2⟩ := (C103_list _).mp hw
      rw [← (decodes_encode _).unique d1] at d2
      by_contra hne
      exact four_smul_B_ne hne d2
    · intro e
      rw [e]
      exact (C103_list _).mpr ⟨Witness.zero_accepted, 0, decodes_encode 0, smul_zero 4⟩
  have hn : RFC.nonce xof (keySeed xof k.1) m • B = 0 ↔ RFC.nonce xof (keySeed xof k.1) m % q = 0 := by
    rw [← zero_smul ℕ B, smul_B_inj, Nat.zero_mod]
  refine ⟨hw.trans hn, fun hs => ?_⟩
  have e := hw.mp hs
  rw [e] at h2 h4
  refine ⟨h2, ?_⟩
  rw [zero_add, smul_smul, smul_B_inj, Nat.mod_eq_of_lt h3, h2] at h4
  exact h4

/-- C105. Such a signature, whoever made it, reveals the secret scalar modulo q of the key under which it satisfies the equation of RFC 8032: it is the quotient of the
second half and the challenge. -/
theorem C105_reveals (xof : Xof) (k A : Arr Byte 57) (hA : ed448_derive_public xof k = .ok A) (b : List Byte) (R : E) (S : ℕ) (m : List Byte)
    (hb : b ∈ weakKeys) (hR : Decodes b R) (hc : RFC.challenge xof b A.1 m % q ≠ 0) (P : E) (hP : Decodes A.1 P)
    (he : RFC.Equation S R P (RFC.challenge xof b A.1 m)) :
    keyScalar xof k.1 % q = quotient S 0 (RFC.challenge xof b A.1 m) 0 := by
  obtain ⟨A', a1, a2⟩ := derive_spec xof k
  obtain rfl := Except.ok.inj (hA.symm.trans a1)
  obtain ⟨_, T, d1, d2⟩ := (C103_list _).mp hb
  rw [d1.unique hR] at d2
  generalize RFC.challenge xof b A.1 m = c at *
  rw [a2] at hP
  rw [← (decodes_encode _).unique hP, RFC.Equation, d2, zero_add, smul_smul, smul_smul, smul_smul, smul_B_inj] at he
  apply quotient_unique (by rwa [Nat.zero_mod])
  have h4 : (4 : ZMod q) ≠ 0 := by
    intro h0
    have h1 : ((4 : ℕ) : ZMod q) = ((0 : ℕ) : ZMod q) := by exact_mod_cast h0
    rw [ZMod.natCast_eq_natCast_iff', ← qN_eq] at h1
    revert h1
    decide +kernel
  have h1 := (ZMod.natCast_eq_natCast_iff' _ _ _).mpr he
  apply (ZMod.natCast_eq_natCast_iff' _ _ _).mp
  push_cast at h1 ⊢
  apply mul_left_cancel₀ h4
  linear_combination -h1

/-- C105. For every private key, no signature of `n` given messages starts with a weak string, except with a chance of at most `n / 2^445` for a random hash function. -/
theorem C105_rare (L : ℕ) (k : Fin 57 → Byte) (ms : List (List Byte)) (hL : ∀ m ∈ ms, 124 + m.length ≤ L) :
    chance {f : Short L → Out | ∃ m ∈ ms, ∃ sig, ed448_sign (hashOf f) (keyOf k) m = .ok sig ∧ sig.1.take 57 ∈ weakKeys} ≤ ms.length / 2 ^ 445 := by
  have h := chance_exists (α := Short L → Out) (ι := Fin ms.length) (fun i f => RFC.nonce (hashOf f) (keySeed (hashOf f) (keyOf k).1) (ms.get i) % q ∈ ({0} : Finset ℕ))
    (1 / 2 ^ 445) fun i => ?_
  · refine (chance_imp fun f hf => ?_).trans (h.trans (le_of_eq ?_))
    · obtain ⟨m, hm, sig, h1, h2⟩ := hf
      obtain ⟨i, rfl⟩ := List.get_of_mem hm
      obtain ⟨A, a1, _⟩ := derive_spec (hashOf f) (keyOf k)
      exact ⟨i, by rw [Finset.mem_singleton]; exact (C105_made _ _ _ _ _ a1 h1).1.mp h2⟩
    · rw [Fintype.card_fin]
      ring
  · refine (chance_keyNonce k _ ?_ {0}).trans ?_
    · have := hL _ (List.get_mem ms i)
      omega
    · rw [Finset.card_singleton, Nat.cast_one, one_mul]
      exact residue_bound

/-- A case for `C105_reveals`: any private key, the string of the neutral element, and the second half made from the secret scalar. -/
example (xof : Xof) (k A : Arr Byte 57) (m : List Byte) (hA : ed448_derive_public xof k = .ok A) :
    encodePoint 0 ∈ weakKeys ∧ Decodes (encodePoint 0) 0 ∧ Decodes A.1 (keyScalar xof k.1 • B) ∧
      RFC.Equation (RFC.challenge xof (encodePoint 0) A.1 m * keyScalar xof k.1) 0 (keyScalar xof k.1 • B) (RFC.challenge xof (encodePoint 0) A.1 m) := by
  obtain ⟨A', a1, a2⟩ := derive_spec xof k
  obtain rfl := Except.ok.inj (hA.symm.trans a1)
  refine ⟨(C103_list _).mpr ⟨Witness.zero_accepted, 0, decodes_encode 0, smul_zero 4⟩, decodes_encode 0, ?_, ?_⟩
  · rw [a2]
    exact decodes_encode _
  · rw [RFC.Equation, smul_zero, zero_add, mul_smul, smul_smul, smul_smul]

/-- A hash function with only zero bytes makes such signatures. -/
example (k A : Arr Byte 57) (hA : ed448_derive_public (fun _ _ => 0) k = .ok A) (sig : Arr Byte 114)
    (h : ed448_sign (fun _ _ => 0) k [] = .ok sig) : sig.1.take 57 ∈ weakKeys := by
  refine (C105_made _ _ _ _ _ hA h).1.mpr ?_
  rw [RFC.nonce, RFC.hash, show (List.range 114).map (fun _ => (0 : Byte)) = List.replicate 114 0#8 from rfl, leNat_replicate_zero, Nat.zero_mod]

end Ed448
