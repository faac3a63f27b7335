import Verif.Eddsa.Sign

/-!
# Verification
-/

set_option exponentiation.threshold 1000

namespace Ed448

/-- Difference of the cross products of the coordinates. -/
noncomputable def cross (P Q : Pt) : F := P.y.toF * Q.x.toF - P.x.toF * Q.y.toF

/-- `P` and `Q` are the points that verification of the given strings compares. -/
def Compared (xof : Xof) (pk sig m : List Byte) (P Q : Pt) : Prop :=
  ∃ p p2 r sig1 sig2, eddsa_like_decode pk = .ok (.ok p) ∧ p.point_scalar_mul SCALAR_FOUR = .ok p2 ∧ sliceArr sig 0 57 = .ok sig1 ∧
    sliceArr sig 57 57 = .ok sig2 ∧ eddsa_like_decode sig1.1 = .ok (.ok r) ∧ verifyPoints xof p p2 r sig1 sig2 m = .ok (P, Q)

theorem sliceArr_ok {l : List Byte} {lo n : ℕ} (h : lo + n ≤ l.length) : ∃ a : Arr Byte n, sliceArr l lo n = .ok a ∧ a.1 = (l.drop lo).take n := by
  have h1 : ((l.drop lo).take n).length = n := by
    rw [List.length_take, List.length_drop]
    omega
  refine ⟨⟨_, h1⟩, ?_, rfl⟩
  unfold sliceArr
  rw [dif_pos h1]

theorem sliceArr_err {l : List Byte} {lo n : ℕ} (h : l.length < lo + n) (hn : 0 < n) : sliceArr l lo n = .error .bounds := by
  unfold sliceArr
  rw [dif_neg]
  rw [List.length_take, List.length_drop]
  omega

theorem bind_err {α β : Type} (e : Panic) (f : α → Rust β) : ((.error e : Rust α) >>= f) = .error e := rfl

theorem four_lt_q : SCALAR_FOUR.val < q := by
  rw [SCALAR_FOUR_val, q_def]
  decide +kernel

/-- The point compared for the string decoded as `A`. -/
theorem four_quarter (A : E) : 4 • (recoded SCALAR_FOUR • (recoded quarterScalar • A)) = 4 • A := by
  obtain ⟨k, hk⟩ := recoded_mod four_lt_q
  rw [SCALAR_FOUR_val] at hk
  rw [smul_comm, smul_four_congr _ hk, quarter_four, natCast_zsmul, four_cleared]

attribute [local irreducible] Pt.point_scalar_mul eddsa_like_decode Pt.point_double_scalamul_non_secret Pt.eddsa_like_encode decode_long
  hash_with_dom scalarSub Pt.mod_equal

theorem equation_iff {A R : E} {S c : ℕ} {s n : ℕ} (hs : s = S % q) (hn : n = (0 + q - c % q) % q) :
    4 • (recoded SCALAR_FOUR • (recoded quarterScalar • R)) = 4 • (n • (recoded SCALAR_FOUR • (recoded quarterScalar • A)) + s • B) ↔
      RFC.Equation S R A c := by
  have h1 : s • B = S • B := by rw [hs, smul_B_mod]
  have h2 : n • (4 • A) + c • (4 • A) = 0 := by
    have hc := Nat.mod_lt c q_pos
    have : ∃ k, n + c = k * q := by
      have hd : q ∣ n + c := by
        apply Nat.dvd_of_mod_eq_zero
        rw [hn, Nat.mod_add_mod]
        rw [show 0 + q - c % q + c = q + (c - c % q) by have := Nat.mod_le c q; omega, Nat.add_mod_left]
        exact Nat.sub_mod_eq_zero_of_mod_eq (Nat.mod_mod _ _).symm
      obtain ⟨k, hk⟩ := hd
      exact ⟨k, hk.trans (mul_comm _ _)⟩
    obtain ⟨k, hk⟩ := this
    rw [← add_smul, hk, mul_smul, q_smul_four, smul_zero]
  rw [RFC.Equation, four_quarter, smul_add, smul_comm 4 n, four_quarter, h1, smul_comm 4 c A]
  constructor
  · intro h
    rw [h]
    calc 4 • S • B = 4 • S • B + (n • (4 • A) + c • (4 • A)) := by rw [h2, add_zero]
      _ = _ := by abel
  · intro h
    rw [h]
    calc 4 • R = 4 • R + (n • (4 • A) + c • (4 • A)) := by rw [h2, add_zero]
      _ = _ := by abel

theorem verifyPoints_spec (xof : Xof) {p p2 r : Pt} (hp : p.Red) (h2 : p.point_scalar_mul SCALAR_FOUR = .ok p2) (hr : r.Red)
    (sig1 sig2 : Arr Byte 57) (m : List Byte) : ∃ P Q, verifyPoints xof p p2 r sig1 sig2 m = .ok (P, Q) ∧ P.Red ∧ Q.Red ∧
      ∀ A R, RepT p (recoded quarterScalar • A) → RepT r (recoded quarterScalar • R) →
        (cross P Q = 0 ↔ RFC.Equation (leNat sig2.1) R A (RFC.challenge xof sig1.1 (encodePoint ((q + 1) • A)) m)) := by
  have hlt : ∀ b, (decode_long b).val < q := fun b => by rw [decode_long_val]; exact Nat.mod_lt _ q_pos
  obtain ⟨p2', g1, g2⟩ := point_scalar_mul_red hp SCALAR_FOUR
  rw [h2] at g1
  injection g1 with g1
  subst g1
  obtain ⟨P, P1, P2⟩ := point_scalar_mul_red hr SCALAR_FOUR
  have hz : SCALAR_ZERO.val < q := by rw [SCALAR_ZERO_val]; exact q_pos
  have hn := scalarSub_val SCALAR_ZERO (decode_long (hash_with_dom xof (sig1.1 ++ p.eddsa_like_encode.1 ++ m) 114).1) hz (hlt _)
  rw [SCALAR_ZERO_val, decode_long_val] at hn
  have hnlt : (scalarSub SCALAR_ZERO (decode_long (hash_with_dom xof (sig1.1 ++ p.eddsa_like_encode.1 ++ m) 114).1)).val < q := by
    rw [hn]; exact Nat.mod_lt _ q_pos
  obtain ⟨Q, Q1, Q2⟩ := double_mul_red g2 (hlt sig2.1) hnlt
  refine ⟨P, Q, ?_, P2, Q2, ?_⟩
  · unfold verifyPoints
    rw [P1, bind_ok]
    dsimp only
    rw [Q1, bind_ok]
    rfl
  · intro A R hA hR
    obtain ⟨P', P3, P4⟩ := point_scalar_mul_rep hR SCALAR_FOUR
    rw [P1] at P3
    injection P3 with P3
    obtain ⟨p2', p3, p4⟩ := point_scalar_mul_rep hA SCALAR_FOUR
    rw [h2] at p3
    injection p3 with p3
    rw [← p3] at p4
    obtain ⟨Q', Q3, Q4⟩ := double_mul_rep p4 (hlt sig2.1) hnlt
    rw [Q1] at Q3
    injection Q3 with Q3
    rw [← P3] at P4
    rw [← Q3] at Q4
    rw [cross, mod_equal_rep P4.rep Q4]
    have e1 : leNat (hash_with_dom xof (sig1.1 ++ p.eddsa_like_encode.1 ++ m) 114).1 =
        RFC.challenge xof sig1.1 (encodePoint ((q + 1) • A)) m := by
      rw [hash_with_dom_eq, RFC.challenge, encode_rep hA.rep, quarter_four, List.append_assoc, List.append_assoc, List.append_assoc]
    rw [e1] at hn
    exact equation_iff (decode_long_val sig2.1) hn

/-- All cases of verification. -/
theorem dsa_verify_cases (xof : Xof) (pk sig m : List Byte) :
    (pk.length ≠ 57 ∧ dsa_verify xof pk sig m = .ok (.error .InvalidPubkeyLengthError)) ∨
    (pk.length = 57 ∧ ¬ Accepted pk ∧ dsa_verify xof pk sig m = .ok (.error .DecodePubkeyError)) ∨
    (Accepted pk ∧ sig.length < 114 ∧ dsa_verify xof pk sig m = .error .bounds) ∨
    (Accepted pk ∧ 114 ≤ sig.length ∧ ¬ Accepted (sig.take 57) ∧ dsa_verify xof pk sig m = .ok (.error .DecodeSignatureError)) ∨
    (Accepted pk ∧ 114 ≤ sig.length ∧ Accepted (sig.take 57) ∧ ∃ P Q, Compared xof pk sig m P Q ∧
      dsa_verify xof pk sig m = .ok (.ok (decide (LowZero (cross P Q)))) ∧
      ∀ A R, Decodes pk A → Decodes (sig.take 57) R → (cross P Q = 0 ↔
        RFC.Equation (leNat ((sig.drop 57).take 57)) R A (RFC.challenge xof (sig.take 57) (encodePoint ((q + 1) • A)) m))) := by
  by_cases hl : pk.length = 57
  swap
  · left
    refine ⟨hl, ?_⟩
    unfold dsa_verify
    rw [decode_length hl, bind_ok]
    rfl
  right
  rcases decode_cases hl with ⟨ha, p, p1, p2, p3⟩ | ⟨ha, hd⟩
  swap
  · left
    refine ⟨hl, ha, ?_⟩
    unfold dsa_verify
    rw [hd, bind_ok]
    rfl
  right
  obtain ⟨P2, g1, g2⟩ := point_scalar_mul_red p2 SCALAR_FOUR
  have hstart : dsa_verify xof pk sig m = (do
    let sig1 ← sliceArr sig 0 57
    let sig2 ← sliceArr sig 57 57
    match ← eddsa_like_decode sig1.1 with
    | .error .InvalidLengthError => pure (.error .InvalidSignatureLengthError)
    | .error .DecodeError => pure (.error .DecodeSignatureError)
    | .error _ => .error .explicit
    | .ok r_point =>
      let r ← verifyPoints xof p P2 r_point sig1 sig2 m
      pure (.ok (r.1.mod_equal r.2))) := by
    unfold dsa_verify
    rw [p1, bind_ok]
    dsimp only
    rw [g1, bind_ok]
    rfl
  by_cases hs : 114 ≤ sig.length
  swap
  · left
    refine ⟨ha, by omega, ?_⟩
    rw [hstart]
    by_cases h57 : sig.length < 57
    · rw [sliceArr_err (by omega) (by norm_num), bind_err]
    · obtain ⟨s1, s2, _⟩ := sliceArr_ok (l := sig) (lo := 0) (n := 57) (by omega)
      rw [s2, bind_ok, sliceArr_err (by omega) (by norm_num), bind_err]
  right
  obtain ⟨sig1, s1, s2⟩ := sliceArr_ok (l := sig) (lo := 0) (n := 57) (by omega)
  obtain ⟨sig2, t1, t2⟩ := sliceArr_ok (l := sig) (lo := 57) (n := 57) (by omega)
  rw [List.drop_zero] at s2
  rw [s1, bind_ok, t1, bind_ok] at hstart
  rcases decode_cases sig1.2 with ⟨hr, r, r1, r2, r3⟩ | ⟨hr, hd⟩
  swap
  · left
    refine ⟨ha, hs, by rw [← s2]; exact hr, ?_⟩
    rw [hstart, hd, bind_ok]
    rfl
  right
  obtain ⟨P, Q, v1, v2, v3, v4⟩ := verifyPoints_spec xof p2 g1 r2 sig1 sig2 m
  refine ⟨ha, hs, by rw [← s2]; exact hr, P, Q, ⟨p, P2, r, sig1, sig2, p1, g1, s1, t1, r1, v1⟩, ?_, ?_⟩
  · rw [hstart, r1, bind_ok]
    dsimp only
    rw [v1, bind_ok, mod_equal_spec v2 v3]
    congr 2
  · intro A R hA hR
    rw [← s2] at hR
    rw [← s2, ← t2]
    exact v4 A R (p3 A hA) (r3 R hR)

end Ed448
