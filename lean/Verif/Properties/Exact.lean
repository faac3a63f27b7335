import Verif.Cost.Exact
import Verif.Properties.Cost

/-!
# C100: the exact time of a verification

How long a verification takes is given by the digits of two public numbers: the second half of the signature and minus the challenge, both modulo q.
-/

set_option exponentiation.threshold 1000

namespace Ed448

open Cost

/-- Every number is written in exactly one way with odd digits between `-2^w` and `2^w` that are more than `w` places apart. -/
theorem C100_digits (w : ℕ) (hw : 0 < w) (n : ℤ) : ∃! L, SignedDigits w n L := by
  obtain ⟨L, hL⟩ := SignedDigits.exists hw n
  exact ⟨L, hL, fun L' h => h.unique hL⟩

/-- Where the parts of a signature come from. -/
theorem sliceArr_eq {l : List Byte} {lo n : ℕ} {a : Arr Byte n} (h : sliceArr l lo n = .ok a) : a.1 = (l.drop lo).take n := by
  unfold sliceArr at h
  split at h
  · injection h with h
    rw [← h]
  · cases h

/-- C100. A verification that answers takes 17762 multiplications and those of the main loop, which are given by the digits, between -16 and 16 and between
-64 and 64, of minus the challenge and of the second half of the signature. -/
theorem C100_exact (xof : Xof) (pk sig m : List Byte) (b : Bool) (h : ed448_verify xof pk sig m = .ok (.ok b)) : ∃ c : ℕ,
    (∀ A, Decodes pk A → c = RFC.challenge xof (sig.take 57) (encodePoint ((q + 1) • A)) m) ∧
    ∀ V P, SignedDigits 4 ((q - c % q) % q : ℕ) V → SignedDigits 6 (leNat ((sig.drop 57).take 57) % q : ℕ) P →
      (Cost.ed448_verify xof pk sig m).mults = 17762 + doubleMults V P := by
  rw [← ed448_verify_result, Cost.ed448_verify] at h
  by_cases hz : pk = List.replicate 57 0 ∨ sig = List.replicate 114 0
  · rw [if_pos hz] at h
    cases h
  rw [if_neg hz, Cost.dsa_verify] at h
  obtain ⟨r, a1, h, a2, -⟩ := bind_cost h
  obtain ⟨-, c2, -⟩ := decode_cost a1
  cases r with
  | error e => cases e <;> cases h
  | ok p =>
    dsimp only at h a2
    obtain ⟨p2, b1, h, b2, -⟩ := bind_cost h
    obtain ⟨sig1, s1, h, d2, -⟩ := bind_cost h
    obtain ⟨sig2, s2, h, e2, -⟩ := bind_cost h
    obtain ⟨r, f1, h, f2, -⟩ := bind_cost h
    obtain ⟨-, g2, -⟩ := decode_cost f1
    obtain ⟨i1, -⟩ := (point_scalar_mul_exact _ _).eq p2 b1
    cases r with
    | error e => cases e <;> cases h
    | ok r =>
      dsimp only at h f2
      obtain ⟨x, j1, h, j2, -⟩ := bind_cost h
      obtain ⟨b', l1, h, l2, -⟩ := bind_cost h
      obtain ⟨n1, -⟩ := (Exact.of_eq (mod_equal_eq x.1 x.2)).eq b' l1
      have e1 : sig1.1 = sig.take 57 := by rw [sliceArr_eq s1, List.drop_zero]
      have e3 : sig2.1 = (sig.drop 57).take 57 := sliceArr_eq s2
      rw [decode_result] at a1
      refine ⟨leNat (Ed448.hash_with_dom xof (sig1.1 ++ p.eddsa_like_encode.1 ++ m) 114).1, ?_, ?_⟩
      · intro A hA
        have hl : pk.length = 57 := by
          by_contra hl
          have d1 := Except.ok.inj (a1.symm.trans (decode_length hl))
          exact absurd d1 (by simp)
        rcases Ed448.decode_cases hl with ⟨-, p', d1, -, d3⟩ | ⟨-, d1⟩
        · have d1 := Except.ok.inj (Except.ok.inj (a1.symm.trans d1))
          rw [← d1] at d3
          rw [hash_with_dom_eq, RFC.challenge, encode_rep (d3 A hA).rep, quarter_four, List.append_assoc, List.append_assoc, List.append_assoc, e1]
        · have d1 := Except.ok.inj (a1.symm.trans d1)
          exact absurd d1 (by simp)
      · intro V P hV hP
        rw [← e3] at hP
        have k1 := verifyPoints_exact (fun a ha => by rw [encode_result] at ha; cases ha; rfl) hV hP j1
        rw [Cost.ed448_verify, if_neg hz, Cost.dsa_verify, a2, c2 p rfl, b2, d2, e2, f2, i1, g2 r rfl, j2, k1, l2, n1, pure_mults]
        show 4543 + (4065 + (0 + (0 + (4543 + (4609 + doubleMults V P + (2 + 0)))))) = _
        omega

/-- C100, for a key from the library: the challenge is that of RFC 8032. -/
theorem C100_library (xof : Xof) (k pk : Arr Byte 57) (sig m : List Byte) (b : Bool) (hk : ed448_derive_public xof k = .ok pk)
    (h : ed448_verify xof pk.1 sig m = .ok (.ok b)) (V P : List (ℕ × ℤ))
    (hV : SignedDigits 4 ((q - RFC.challenge xof (sig.take 57) pk.1 m % q) % q : ℕ) V)
    (hP : SignedDigits 6 (leNat ((sig.drop 57).take 57) % q : ℕ) P) :
    (Cost.ed448_verify xof pk.1 sig m).mults = 17762 + doubleMults V P := by
  obtain ⟨pk', k1, k2⟩ := derive_spec xof k
  rw [hk] at k1
  injection k1 with k1
  subst k1
  obtain ⟨c, h1, h2⟩ := C100_exact xof pk.1 sig m b h
  have hA : Decodes pk.1 (keyScalar xof k.1 • B) := by rw [k2]; exact decodes_encode _
  have := h1 _ hA
  rw [cleared_smul_B, ← k2] at this
  rw [this] at h2
  exact h2 V P hV hP

/-- The multiplications of the main loop, in terms of the highest place, and the numbers of digits. -/
theorem C100_main {v p : ℕ × ℤ} {V P : List (ℕ × ℤ)} :
    doubleMults (v :: V) (p :: P) + (if v.1 < p.1 then 5 else if v.1 = p.1 then 4 else 3) =
      7 * max v.1 p.1 + 8 * (v :: V).length + 7 * (p :: P).length := by
  rw [doubleMults, List.length_cons, List.length_cons]
  split_ifs <;> omega

namespace Vectors

/-- The digits of minus the challenge in `test_dsa_verify`. -/
def testV : List (ℕ × ℤ) :=
  [(446, 1), (440, -15), (435, -3), (429, -5), (424, -15), (419, 7), (414, 3), (409, -1), (403, -15), (398, -5), (393, 7), (387, 7), (382, 1), (377,
    1), (369, -7), (363, 5), (357, -13), (352, 13), (346, 11), (341, 11), (336, -11), (331, 15), (324, 11), (316, -15), (311, 5), (306, -7), (301,
    -11), (294, -1), (288, 5), (283, -15), (275, -13), (270, -15), (263, 5), (257, 15), (252, -7), (247, -13), (240, 7), (235, 5), (230, 5), (225,
    -1), (220, 7), (215, 3), (207, 13), (202, 5), (196, -5), (185, 1), (179, -1), (172, -13), (166, -11), (159, -13), (149, -3), (143, 13), (138, -1),
    (132, 13), (127, -13), (122, -9), (115, 11), (110, -15), (105, 7), (99, -3), (94, 1), (89, -3), (83, 15), (78, -15), (73, -1), (67, -5), (62, -9),
    (56, 5), (50, 15), (35, -9), (29, -3), (23, 5), (18, -1), (11, 13), (5, 11)]

/-- The digits of the second half of the signature of `test_dsa_verify`. -/
def testP : List (ℕ × ℤ) :=
  [(445, 1), (437, 35), (430, -35), (421, 21), (414, -55), (406, -1), (399, -43), (392, -5), (382, -19), (375, -41), (365, -7), (358, -55), (351,
    -29), (342, -35), (335, 47), (326, 43), (319, 11), (308, 31), (301, -55), (293, -41), (284, 5), (276, 31), (268, 15), (261, -39), (252, -45),
    (245, -47), (238, -35), (230, 49), (223, -11), (216, -15), (209, -15), (201, 29), (193, -19), (186, 19), (177, 3), (170, 21), (162, 7), (154,
    -31), (145, -23), (138, 19), (131, 15), (123, 49), (116, -29), (109, -27), (102, 55), (94, -29), (87, -25), (78, -39), (71, 45), (62, 25), (55,
    -35), (47, 11), (40, 43), (30, 27), (23, -27), (15, -57), (4, 39)]

theorem digits_of {w : ℕ} {n : ℤ} {L : List (ℕ × ℤ)} (h1 : (L.all fun d => d.2 % 2 == 1 && decide (|d.2| < 2 ^ w)) = true)
    (h2 : L.Pairwise fun a b => b.1 + w < a.1) (h3 : digitsSum L = n) : SignedDigits w n L := by
  rw [List.all_eq_true] at h1
  refine ⟨fun d hd => ?_, fun d hd => ?_, h2, h3⟩
  · have := h1 d hd
    rw [Bool.and_eq_true, beq_iff_eq] at this
    exact this.1
  · have := h1 d hd
    rw [Bool.and_eq_true, decide_eq_true_eq] at this
    exact this.2

theorem test_V : SignedDigits 4 ((q - RFC.challenge Shake.shake256 (testSig.take 57) testKey fox % q) % q : ℕ) testV :=
  digits_of (by decide +kernel) (by decide +kernel) (by decide +kernel)

theorem test_P : SignedDigits 6 (leNat ((testSig.drop 57).take 57) % q : ℕ) testP :=
  digits_of (by decide +kernel) (by decide +kernel) (by decide +kernel)

end Vectors

/-- The hypotheses are met: the verification in `test_dsa_verify`, /repo/src/eddsa.rs, takes 21880 multiplications. -/
theorem C100_test : (Cost.ed448_verify Shake.shake256 Vectors.testKey Vectors.testSig Vectors.fox).mults = 21880 := by
  obtain ⟨c, h1, h2⟩ := C100_exact _ _ _ _ _ Vectors.test_verify
  have hA := Vectors.test_key
  rw [decodesTo_iff] at hA
  have := h1 _ (by rw [hA]; exact decodes_encode _)
  rw [cleared_smul_B, ← hA] at this
  rw [this] at h2
  rw [h2 _ _ Vectors.test_V Vectors.test_P]
  decide +kernel

/-! ## The least and the most work -/

theorem doubleMults_pos (V P : List (ℕ × ℤ)) : 1 ≤ doubleMults V P := by
  unfold doubleMults
  split
  · exact le_refl _
  · omega
  · omega
  · split_ifs <;> omega

namespace Vectors

/-- A hash function that gives the bytes of one number. -/
def numberXof (c : ℕ) : Xof := fun _ i => (leBytes 114 c).getD i 0

/-- The first half of the signature of `test_dsa_verify` with another second half. -/
def testWith (S : ℕ) : List Byte := testSig.take 57 ++ leBytes 57 S

/-- Verification answers under the key of `test_dsa_verify`, with any hash function and any second half. -/
theorem testWith_answers (xof : Xof) (S : ℕ) (m : List Byte) : ∃ b, ed448_verify xof testKey (testWith S) m = .ok (.ok b) := by
  have hl : (testSig.take 57).length = 57 := by decide +kernel
  have hz : ¬ ZeroInput testKey testSig := by decide +kernel
  have hz' : ¬ ZeroInput testKey (testWith S) := by
    rintro (h | h)
    · exact hz (Or.inl h)
    · have h := congrArg (List.take 57) h
      rw [testWith, List.take_left' hl] at h
      exact absurd h (by decide +kernel)
  have hv := test_verify
  rw [verify_nonzero hz] at hv
  have hacc : Accepted testKey ∧ Accepted (testSig.take 57) := by
    rcases dsa_verify_cases Shake.shake256 testKey testSig fox with ⟨h1, h2⟩ | ⟨h1, h2, h3⟩ | ⟨h1, h2, h3⟩ | ⟨h1, h2, h3, h4⟩ | ⟨h1, h2, h3, _⟩
    · exact absurd (Except.ok.inj (hv.symm.trans h2)) (by simp)
    · exact absurd (Except.ok.inj (hv.symm.trans h3)) (by simp)
    · exact absurd (hv.symm.trans h3) (by simp)
    · exact absurd (Except.ok.inj (hv.symm.trans h4)) (by simp)
    · exact ⟨h1, h3⟩
  have hlen : (testWith S).length = 114 := by rw [testWith, List.length_append, hl, leBytes_length]
  rw [verify_nonzero hz']
  rcases dsa_verify_cases xof testKey (testWith S) m with ⟨h1, h2⟩ | ⟨h1, h2, h3⟩ | ⟨h1, h2, h3⟩ | ⟨h1, h2, h3, h4⟩ | ⟨h1, h2, h3, P, Q, _, h4, _⟩
  · exact absurd hacc.1.1 h1
  · exact absurd hacc.1 h2
  · omega
  · exact absurd (by rw [testWith, List.take_left' hl]; exact hacc.2) h3
  · exact ⟨_, h4⟩

theorem numberXof_challenge (c : ℕ) (R A m : List Byte) : RFC.challenge (numberXof c) R A m = leNat (RFC.hash (numberXof c) [] 114) := rfl

theorem testWith_cost {c S : ℕ} {V P : List (ℕ × ℤ)} (hV : SignedDigits 4 ((q - leNat (RFC.hash (numberXof c) [] 114) % q) % q : ℕ) V)
    (hP : SignedDigits 6 (leNat (((testWith S).drop 57).take 57) % q : ℕ) P) :
    ∃ b, ed448_verify (numberXof c) testKey (testWith S) [] = .ok (.ok b) ∧
      (Cost.ed448_verify (numberXof c) testKey (testWith S) []).mults = 17762 + doubleMults V P := by
  obtain ⟨b, hb⟩ := testWith_answers (numberXof c) S []
  refine ⟨b, hb, ?_⟩
  obtain ⟨d, h1, h2⟩ := C100_exact _ _ _ _ _ hb
  have hA := test_key
  rw [decodesTo_iff] at hA
  have := h1 _ (by rw [hA]; exact decodes_encode _)
  rw [numberXof_challenge] at this
  rw [this] at h2
  exact h2 _ _ hV hP

/-- A number with as many digits as possible: 90 digits 1 or -1, five places apart. -/
def mostV : List (ℕ × ℤ) := (446, 1) :: (List.range 89).map fun i => (441 - 5 * i, -1)

/-- A number with as many digits as possible below place 446: 64 digits 1, seven places apart. -/
def mostP : List (ℕ × ℤ) := (List.range 64).map fun i => (445 - 7 * i, 1)

end Vectors

/-- C100. A verification that answers takes at least 17763 and at most 22049 multiplications; both numbers occur. -/
theorem C100_range :
    (∀ (xof : Xof) (pk sig m : List Byte) (b : Bool), ed448_verify xof pk sig m = .ok (.ok b) →
      17763 ≤ (Cost.ed448_verify xof pk sig m).mults ∧ (Cost.ed448_verify xof pk sig m).mults ≤ 22049) ∧
    (∃ xof pk sig m b, ed448_verify xof pk sig m = .ok (.ok b) ∧ (Cost.ed448_verify xof pk sig m).mults = 17763) ∧
    (∃ xof pk sig m b, ed448_verify xof pk sig m = .ok (.ok b) ∧ (Cost.ed448_verify xof pk sig m).mults = 22049) := by
  refine ⟨fun xof pk sig m b h => ⟨?_, (ed448_verify_atMost xof pk sig m).le⟩, ?_, ?_⟩
  · obtain ⟨c, _, h2⟩ := C100_exact xof pk sig m b h
    obtain ⟨V, hV⟩ := SignedDigits.exists (w := 4) (by norm_num) ((q - c % q) % q : ℕ)
    obtain ⟨P, hP⟩ := SignedDigits.exists (w := 6) (by norm_num) (leNat ((sig.drop 57).take 57) % q : ℕ)
    have := doubleMults_pos V P
    rw [h2 V P hV hP]
    omega
  · obtain ⟨b, h1, h2⟩ := Vectors.testWith_cost (c := 0) (S := 0) (V := []) (P := [])
      (Vectors.digits_of (by decide +kernel) (by decide +kernel) (by decide +kernel))
      (Vectors.digits_of (by decide +kernel) (by decide +kernel) (by decide +kernel))
    exact ⟨_, _, _, _, b, h1, h2⟩
  · obtain ⟨b, h1, h2⟩ := Vectors.testWith_cost (c := (q - (digitsSum Vectors.mostV).toNat % q) % q) (S := (digitsSum Vectors.mostP).toNat)
      (V := Vectors.mostV) (P := Vectors.mostP)
      (Vectors.digits_of (by decide +kernel) (by decide +kernel) (by decide +kernel))
      (Vectors.digits_of (by decide +kernel) (by decide +kernel) (by decide +kernel))
    refine ⟨_, _, _, _, b, h1, h2.trans (by decide +kernel)⟩

end Ed448
