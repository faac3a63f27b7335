import Verif.Cost.Verify
import Verif.Properties.Exceptions
import Verif.Properties.Vectors

/-!
# C83: the work done is constant for signing and bounded for verification

`Model/Cost.lean` is the library with a count of the multiplications in the field and a list of the lengths of the hashed strings.
-/

namespace Ed448

open Cost

/-- C83. Deriving a public key takes 1214 multiplications for every key and hashes 57 bytes if the key is a seed; the result is that of the
library. -/
theorem C83_derive (xof : Xof) (k : Arr Byte 57) :
    Cost.ed448_derive_public xof k = ⟨1214, if signBit k.1 = 0 then [57] else [], ed448_derive_public xof k⟩ := by
  obtain ⟨A, hA, -⟩ := derive_spec xof k
  have hr := ed448_derive_public_result xof k
  have hE : Exact (Cost.ed448_derive_public xof k) 1214 (if signBit k.1 = 0 then [57] else []) := by
    rw [Cost.ed448_derive_public, topBitClear_eq]
    simp only [decide_eq_true_eq]
    split
    · exact private_to_public_exact xof k
    · exact secret_to_public_exact k
  obtain ⟨h1, h2⟩ := hE.eq A (hr.trans hA)
  exact eq_mk h1 h2 hr

/-- C83. Signing takes 2428 multiplications for every key and message and hashes the key, if it is a seed, and two strings that are 67 and 124
bytes longer than the message; the result is that of the library. -/
theorem C83_sign (xof : Xof) (k : Arr Byte 57) (m : List Byte) :
    Cost.ed448_sign xof k m =
      ⟨2428, (if signBit k.1 = 0 then [57] else []) ++ [67 + m.length, 124 + m.length], ed448_sign xof k m⟩ := by
  obtain ⟨sig, hs, -⟩ := sign_spec xof k m
  have hr := ed448_sign_result xof k m
  have hE : Exact (Cost.ed448_sign xof k m) 2428 ((if signBit k.1 = 0 then [57] else []) ++ [67 + m.length, 124 + m.length]) := by
    rw [Cost.ed448_sign, topBitClear_eq]
    simp only [decide_eq_true_eq]
    split
    · exact sign_by_private_exact xof k m
    · exact sign_with_secret_and_nonce_exact xof _ _ m
  obtain ⟨h1, h2⟩ := hE.eq sig (hr.trans hs)
  exact eq_mk h1 h2 hr

/-- C83. Verification takes at most 22049 multiplications, whatever the key, the signature, the message and the hash function, and hashes at most one
string, which is 124 bytes longer than the message; the result is that of the library. -/
theorem C83_verify (xof : Xof) (pubkey sig m : List Byte) : ∃ n h,
    Cost.ed448_verify xof pubkey sig m = ⟨n, h, ed448_verify xof pubkey sig m⟩ ∧ n ≤ 22049 ∧ (h = [] ∨ h = [124 + m.length]) := by
  have hA := ed448_verify_atMost xof pubkey sig m
  refine ⟨(Cost.ed448_verify xof pubkey sig m).mults, (Cost.ed448_verify xof pubkey sig m).hashed,
    eq_mk rfl rfl (ed448_verify_result xof pubkey sig m), hA.le, ?_⟩
  have h := hA.pre
  generalize (Cost.ed448_verify xof pubkey sig m).hashed = l at h
  rcases l with _ | ⟨a, _ | ⟨b, l⟩⟩
  · exact Or.inl rfl
  · right
    simpa using h
  · simpa using h.length_le

/-- C83. A verification that answers takes at least 17762 multiplications and hashes one string; one that finds the key undecodable takes 478 and hashes
nothing. -/
theorem C83_verify_cases (xof : Xof) (pubkey sig m : List Byte) :
    (∀ b, ed448_verify xof pubkey sig m = .ok (.ok b) →
      17762 ≤ (Cost.ed448_verify xof pubkey sig m).mults ∧ (Cost.ed448_verify xof pubkey sig m).hashed = [124 + m.length]) ∧
    (ed448_verify xof pubkey sig m = .ok (.error .DecodePubkeyError) →
      (Cost.ed448_verify xof pubkey sig m).mults = 478 ∧ (Cost.ed448_verify xof pubkey sig m).hashed = []) := by
  rw [← ed448_verify_result, Cost.ed448_verify]
  by_cases hz : pubkey = List.replicate 57 0 ∨ sig = List.replicate 114 0
  · rw [if_pos hz]
    exact ⟨(fun b h => by cases h), (fun h => by cases h)⟩
  rw [if_neg hz, Cost.dsa_verify]
  constructor
  · intro b h
    obtain ⟨r, a1, h, a2, a3⟩ := bind_cost h
    rw [a2, a3]
    obtain ⟨c1, c2, -⟩ := decode_cost a1
    cases r with
    | error e => cases e <;> cases h
    | ok p =>
      dsimp only at h ⊢
      obtain ⟨p2, b1, h, b2, b3⟩ := bind_cost h
      obtain ⟨sig1, -, h, d2, d3⟩ := bind_cost h
      obtain ⟨sig2, -, h, e2, e3⟩ := bind_cost h
      obtain ⟨r, f1, h, f2, f3⟩ := bind_cost h
      obtain ⟨g1, g2, -⟩ := decode_cost f1
      obtain ⟨i1, i2⟩ := (point_scalar_mul_exact _ _).eq p2 b1
      rw [c1, c2 p rfl, b2, b3, d2, d3, e2, e3, f2, f3, g1, i1, i2]
      cases r with
      | error e => cases e <;> cases h
      | ok r =>
        dsimp only at h ⊢
        obtain ⟨x, j1, h, j2, j3⟩ := bind_cost h
        obtain ⟨k1, k2⟩ := verifyPoints_cost j1
        obtain ⟨b', l1, h, l2, l3⟩ := bind_cost h
        obtain ⟨n1, n2⟩ := (Exact.of_eq (mod_equal_eq x.1 x.2)).eq b' l1
        rw [g2 r rfl, j2, j3, k2, l2, l3, n1, n2]
        refine ⟨?_, rfl⟩
        show 17762 ≤ 4543 + (4065 + (0 + (0 + (4543 + (_ + (2 + 0))))))
        omega
  · intro h
    obtain ⟨r, a1, h, a2, a3⟩ := bind_cost h
    rw [a2, a3]
    obtain ⟨c1, -, c2⟩ := decode_cost a1
    cases r with
    | error e =>
      cases e with
      | DecodeError =>
        rw [c1, c2 rfl]
        exact ⟨rfl, rfl⟩
      | _ => cases h
    | ok p =>
      dsimp only at h
      obtain ⟨p2, -, h, -⟩ := bind_cost h
      obtain ⟨sig1, -, h, -⟩ := bind_cost h
      obtain ⟨sig2, -, h, -⟩ := bind_cost h
      obtain ⟨r, -, h, -⟩ := bind_cost h
      cases r with
      | error e => cases e <;> cases h
      | ok r =>
        dsimp only at h
        obtain ⟨x, -, h, -⟩ := bind_cost h
        obtain ⟨b', -, h, -⟩ := bind_cost h
        cases h

/-- A verification as in the first part of `C83_verify_cases`. -/
example : 17762 ≤ (Cost.ed448_verify Shake.shake256 Vectors.testKey Vectors.testSig Vectors.fox).mults :=
  ((C83_verify_cases _ _ _ _).1 _ Vectors.test_verify).1

/-- A key as in the second part. -/
example (xof : Xof) (m : List Byte) : (Cost.ed448_verify xof (List.replicate 57 1) [] m).mults = 478 := by
  obtain ⟨_, _, h⟩ : ∃ T : Finset (List Byte), Witness.offKey ∈ T ∧ ∀ (xof : Xof) (m : List Byte),
      ed448_verify xof (List.replicate 57 1) [] m = .ok (.error .DecodePubkeyError) := ones_rejected
  exact ((C83_verify_cases _ _ _ _).2 (h xof m)).1

end Ed448
