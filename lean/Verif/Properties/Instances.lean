import Verif.Properties.Vectors
import Verif.Properties.Count
import Verif.Properties.SameKey

/-!
# Concrete cases

Further cases that meet the hypotheses of the theorems in the other files of this directory, most of them with SHAKE256 for the hash function and
the test vectors of the repository for keys, messages and signatures.
-/

set_option exponentiation.threshold 1000

namespace Ed448

open Vectors Shake

theorem test_long : testSig.length = 114 := hex_length _ _

/-- `C06_sound_partial` for the signature of `test_dsa_verify`. -/
example : Accepted testKey ∧ Accepted (testSig.take 57) ∧ ∃ P Q : Pt, Compared shake256 testKey testSig fox P Q ∧ (cross P Q).val % 2 ^ 420 = 0 := by
  obtain ⟨-, h1, -, h2, P, Q, h3, h4, -⟩ := C06_sound_partial shake256 testKey testSig fox test_verify
  exact ⟨h1, h2, P, Q, h3, h4⟩

/-- `C11_variants` for the signature of `test_dsa_verify`: 1024 different strings are accepted in place of the signature. -/
example : ∀ i < 1024, ed448_verify shake256 testKey (testSig.take 57 ++ leBytes 57 (leNat (testSig.drop 57) % q + i * q)) fox = .ok (.ok true) :=
  (C11_variants shake256 testKey testSig fox test_long test_verify (by decide +kernel)).1

/-- `C45_deterministic` for a key given as bytes and the same key drawn at random. -/
example (xof : Xof) (b : List Byte) (h : b.length = 57) : ∃ (k k' : SigningKey) (rng : Rng Unit), SigningKey.from_slice xof b = .ok k ∧
    SigningKey.random xof rng () = .ok (k', ()) ∧ k = k' ∧ ∀ m, k.sign_prehash xof m = k'.sign_prehash xof m := by
  obtain ⟨A, hA, hk, -⟩ := from_slice_spec (xof := xof) h
  have hr : ∃ k', SigningKey.random xof (⟨fun n _ => (⟨(List.range n).map (fun i => b.getD i 0), by simp⟩, ())⟩ : Rng Unit) () = .ok (k', ()) ∧
      k'.to_bytes = ⟨b, h⟩ := by
    obtain ⟨-, k', h1, h2, -⟩ := C44_random xof (⟨fun n _ => (⟨(List.range n).map (fun i => b.getD i 0), by simp⟩, ())⟩ : Rng Unit) ()
    refine ⟨k', h1, h2.trans (Subtype.ext (List.ext_getElem (by simp [h]) fun i i1 i2 => ?_))⟩
    simp [List.getD_eq_getElem?_getD, List.getElem?_eq_getElem i2]
  obtain ⟨k', h1, h2⟩ := hr
  have e := C45_deterministic xof _ _ (.from_slice hk) (.random h1) h2.symm
  exact ⟨_, k', _, hk, h1, (e []).1, fun m => (e m).2⟩

/-- `C68_scalar` for the base point plus the point of order two: a key that is accepted and gives the same answers as the key of the scalar 1. -/
example (xof : Xof) (sig m : List Byte) : encodePoint (1 • B + T2) ≠ RFC.publicOf 1 ∧
    ed448_verify xof (encodePoint (1 • B + T2)) sig m = ed448_verify xof (RFC.publicOf 1) sig m := by
  have h4 : 4 • (1 • B + T2) = 4 • (1 • B) := by
    rw [smul_add, show 4 • T2 = 2 • 2 • T2 from (smul_smul 2 2 T2).symm, two_smul ℕ T2, T2_double, smul_zero, add_zero]
  have hq : 1 < q := by rw [← qN_eq]; decide +kernel
  obtain ⟨s, s1, s2, s3, -, s4⟩ := C68_scalar (1 • B + T2)
  obtain rfl := s3 1 hq h4
  refine ⟨fun h => ?_, s4 xof _ sig m ?_ (decodes_encode _) (fun h => ?_) ?_⟩
  · rw [RFC.publicOf, encodePoint_inj, add_eq_left] at h
    exact T2_ne_zero h
  · rw [accepted_of_coords Witness.B_T2_coords.1 Witness.B_T2_coords.2 (by decide +kernel)]
    decide +kernel
  · rw [encode_of_coords Witness.B_T2_coords.1 Witness.B_T2_coords.2 (by decide +kernel) (by decide +kernel)] at h
    exact absurd h (by decide +kernel)
  · rw [RFC.publicOf, one_smul]
    exact Witness.B_accepted

end Ed448
