import Mathlib.Algebra.Polynomial.Roots
import Mathlib.Tactic.ComputeDegree
import Mathlib.Data.Set.Card
import Verif.Properties.OffCurve
import Verif.Properties.DecoderCount
import Verif.Properties.Api

/-!
# How many strings the exceptions concern: C05, C27, C30

The claims C05, C27 and C30 are false as they stand, because the decoder rejects some encodings of points and accepts some strings
that are no encodings of points. Here these strings are counted.
-/

set_option exponentiation.threshold 1000

namespace Ed448

open Polynomial

/-! ### Counting by roots of polynomials -/

/-- The values with 420 low zero bits are multiples of 2^420. -/
theorem LowZero.eq_mul {v : F} (h : LowZero v) : ∃ k < 2 ^ 28, v = ((k * 2 ^ 420 : ℕ) : F) := by
  refine ⟨v.val / 2 ^ 420, ?_, ?_⟩
  · have h1 := ZMod.val_lt v
    have h2 := p_lt
    rw [Nat.div_lt_iff_lt_mul (by positivity), ← pow_add]
    omega
  · rw [Nat.div_mul_cancel (Nat.dvd_of_mod_eq_zero h), ZMod.natCast_zmod_val]

/-- If the polynomials of a family are not zero and of degree at most `n`, there are at most `2^28 n` roots for parameters with 420 low zero bits. -/
theorem few_roots (f : F → F[X]) (n : ℕ) (h0 : ∀ v, f v ≠ 0) (hn : ∀ v, (f v).natDegree ≤ n) :
    ∃ S : Finset F, S.card ≤ 2 ^ 28 * n ∧ ∀ y v, LowZero v → (f v).eval y = 0 → y ∈ S := by
  generalize hN : 2 ^ 28 = N
  classical
  refine ⟨(Finset.range N).biUnion fun k => (f ((k * 2 ^ 420 : ℕ) : F)).roots.toFinset, ?_, ?_⟩
  · refine le_trans (Finset.card_biUnion_le_card_mul _ _ n fun k _ => ?_) (by rw [Finset.card_range])
    exact le_trans (Multiset.toFinset_card_le _) (le_trans (card_roots' _) (hn _))
  · intro y v hv hr
    obtain ⟨k, hk, rfl⟩ := hv.eq_mul
    rw [Finset.mem_biUnion]
    refine ⟨k, Finset.mem_range.mpr (by rwa [← hN]), ?_⟩
    rw [Multiset.mem_toFinset, mem_roots (h0 _)]
    exact hr

theorem edD_ne_zero : edD ≠ 0 := by
  intro h
  have h1 : ((39081 : ℕ) : F) = 0 := by
    rw [edD] at h
    push_cast
    linear_combination -h
  rw [ZMod.natCast_eq_zero_iff] at h1
  have := Nat.le_of_dvd (by norm_num) h1
  rw [p_def] at this
  revert this
  decide +kernel

/-! ### Points whose encoding is rejected -/

/-- The polynomial satisfied by the y coordinates of the points for which `imageZ` is `v`. -/
noncomputable def zPoly (v : F) : F[X] :=
  C (-(edD ^ 2)) * X ^ 8 + C (2 * edD ^ 2 + 2 * edD) * X ^ 6 + C (-6 * edD - v * edD ^ 2) * X ^ 4 + C (2 + 2 * edD + 2 * edD * v) * X ^ 2 + C (-1 - v)

theorem zPoly_coeff (v : F) : (zPoly v).coeff 8 = -(edD ^ 2) := by
  unfold zPoly
  simp only [coeff_add, coeff_C_mul, coeff_X_pow, coeff_C]
  norm_num

theorem zPoly_ne (v : F) : zPoly v ≠ 0 := by
  intro h
  have := zPoly_coeff v
  rw [h, coeff_zero] at this
  exact edD_ne_zero (pow_eq_zero_iff (two_ne_zero) |>.mp (neg_eq_zero.mp this.symm))

theorem zPoly_deg (v : F) : (zPoly v).natDegree ≤ 8 := by
  unfold zPoly
  compute_degree

theorem zPoly_eval (A : E) : (zPoly (imageZ A.x A.y)).eval A.y = 0 := by
  have hon := A.on
  unfold zPoly imageZ
  simp only [eval_add, eval_mul, eval_C, eval_pow, eval_X]
  generalize A.x = x at *
  generalize A.y = y at *
  generalize edD = d at *
  have h : x ^ 2 * (1 - d * y ^ 2) = 1 - y ^ 2 := by linear_combination hon
  have e : -(d ^ 2) * y ^ 8 + (2 * d ^ 2 + 2 * d) * y ^ 6 + (-6 * d - (y ^ 2 - x ^ 2) * (2 - x ^ 2 - y ^ 2) * d ^ 2) * y ^ 4 +
      (2 + 2 * d + 2 * d * ((y ^ 2 - x ^ 2) * (2 - x ^ 2 - y ^ 2))) * y ^ 2 + (-1 - (y ^ 2 - x ^ 2) * (2 - x ^ 2 - y ^ 2)) =
      (y ^ 2 * (1 - d * y ^ 2) - (1 - y ^ 2)) * ((2 - y ^ 2) * (1 - d * y ^ 2) - (1 - y ^ 2)) -
      (y ^ 2 * (1 - d * y ^ 2) - x ^ 2 * (1 - d * y ^ 2)) * ((2 - y ^ 2) * (1 - d * y ^ 2) - x ^ 2 * (1 - d * y ^ 2)) := by ring
  rw [e, h, sub_self]

/-- The points with y coordinate in a given finite set. -/
theorem few_points (S : Finset F) : ∃ T : Finset E, T.card ≤ 2 * S.card ∧ ∀ A : E, A.y ∈ S → A ∈ T := by
  classical
  have hm : Set.MapsTo (fun A : E => (A.y, A.x.val % 2)) {A : E | A.y ∈ S} (S ×ˢ Finset.range 2 : Finset (F × ℕ)) := by
    intro A hA
    simp only [Finset.coe_product, Set.mem_prod, Finset.mem_coe, Finset.mem_range]
    exact ⟨hA, Nat.mod_lt _ (by norm_num)⟩
  have hi : Set.InjOn (fun A : E => (A.y, A.x.val % 2)) {A : E | A.y ∈ S} := by
    intro A _ C _ h
    simp only [Prod.mk.injEq] at h
    exact eq_of_y_parity h.1 h.2
  have hf := Set.Finite.of_injOn hm hi (Finset.finite_toSet _)
  refine ⟨hf.toFinset, ?_, fun A hA => by rw [Set.Finite.mem_toFinset]; exact hA⟩
  rw [← Set.ncard_eq_toFinset_card _ hf]
  refine le_trans (Set.ncard_le_ncard_of_injOn _ hm hi (Finset.finite_toSet _)) ?_
  rw [Set.ncard_coe_finset, Finset.card_product, Finset.card_range, mul_comm]

/-- The elements of the field that fail the byte check of the decoder (C33_count). -/
theorem few_failing : ∃ S : Finset F, S.card = 129 * 2 ^ 406 ∧ ∀ y : F, ¬ PassesCheck y.val → y ∈ S := by
  have hf : Set.Finite {y : F | ¬ PassesCheck y.val} := Set.finite_of_ncard_ne_zero (by rw [C33_count.1]; positivity)
  refine ⟨hf.toFinset, ?_, fun y hy => by rw [Set.Finite.mem_toFinset]; exact hy⟩
  rw [← Set.ncard_eq_toFinset_card _ hf, C33_count.1]

/-- At most `129 * 2^407 + 2^32` points, of about `2^448`, have an encoding that is rejected as a key. -/
theorem few_rejected : ∃ T : Finset E, T.card ≤ 129 * 2 ^ 407 + 2 ^ 32 ∧ ∀ A : E, ¬ Accepted (encodePoint A) → A ∈ T := by
  classical
  obtain ⟨S, s1, s2⟩ := few_roots zPoly 8 zPoly_ne zPoly_deg
  obtain ⟨S1, t1, t2⟩ := few_failing
  obtain ⟨T, u1, u2⟩ := few_points (S1 ∪ S)
  refine ⟨T, ?_, fun A hA => u2 A ?_⟩
  · have := Finset.card_union_le S1 S
    have e : 129 * (2 : ℕ) ^ 407 = 2 * (129 * 2 ^ 406) := by rw [pow_succ]; ring
    rw [e]
    generalize 129 * (2 : ℕ) ^ 406 = N at *
    omega
  · rw [accepted_encode] at hA
    rw [Finset.mem_union]
    by_cases hc : PassesCheck A.y.val
    · right
      exact s2 _ _ (by tauto) (zPoly_eval A)
    · left
      exact t2 _ hc

/-- The multiples of the base point with a rejected encoding: at most `129 * 2^407 + 2^32`, which is fewer than one in `2^31`. -/
theorem few_rejected_scalars : ∃ S : Finset ℕ, S.card ≤ 129 * 2 ^ 407 + 2 ^ 32 ∧ ∀ n : ℕ, n % q ∉ S → Accepted (encodePoint (n • B)) := by
  classical
  obtain ⟨T, t1, t2⟩ := few_rejected
  have hm : Set.MapsTo (fun n : ℕ => n • B) {n : ℕ | n < q ∧ n • B ∈ T} T := fun n hn => hn.2
  have hi : Set.InjOn (fun n : ℕ => n • B) {n : ℕ | n < q ∧ n • B ∈ T} := by
    intro m hm n hn h
    have := smul_B_inj.mp h
    rwa [Nat.mod_eq_of_lt hm.1, Nat.mod_eq_of_lt hn.1] at this
  have hf := Set.Finite.of_injOn hm hi (Finset.finite_toSet _)
  refine ⟨hf.toFinset, ?_, fun n hn => ?_⟩
  · rw [← Set.ncard_eq_toFinset_card _ hf]
    have h1 := Set.ncard_le_ncard_of_injOn _ hm hi (Finset.finite_toSet _)
    rw [Set.ncard_coe_finset] at h1
    exact le_trans h1 t1
  · by_contra hA
    refine hn ?_
    rw [Set.Finite.mem_toFinset]
    refine ⟨Nat.mod_lt _ q_pos, ?_⟩
    rw [smul_B_mod]
    exact t2 _ hA

theorem exceptions_rare : 2 ^ 31 * (129 * 2 ^ 407 + 2 ^ 32) < q := by rw [q_def]; decide +kernel

/-- C05, the keys. At most `129 * 2^407 + 2^32` of the `2^445` secret scalars have a public key that is rejected. -/
theorem C05_rejected_secrets : ∃ S : Finset ℕ, S.card ≤ 129 * 2 ^ 407 + 2 ^ 32 ∧
    ∀ l : List Byte, RFC.secretScalar l ∉ S → Accepted (RFC.publicOf (RFC.secretScalar l)) := by
  classical
  obtain ⟨S, s1, s2⟩ := few_rejected_scalars
  have hm : Set.MapsTo (fun n : ℕ => n % q) {n : ℕ | (∃ l, n = RFC.secretScalar l) ∧ n % q ∈ S} S := fun n hn => hn.2
  have hi : Set.InjOn (fun n : ℕ => n % q) {n : ℕ | (∃ l, n = RFC.secretScalar l) ∧ n % q ∈ S} := by
    rintro m ⟨⟨l, rfl⟩, _⟩ n ⟨⟨l', rfl⟩, _⟩ h
    exact secretScalar_inj h
  have hf := Set.Finite.of_injOn hm hi (Finset.finite_toSet _)
  refine ⟨hf.toFinset, ?_, fun l hl => s2 _ fun h => hl ?_⟩
  · rw [← Set.ncard_eq_toFinset_card _ hf]
    have h1 := Set.ncard_le_ncard_of_injOn _ hm hi (Finset.finite_toSet _)
    rw [Set.ncard_coe_finset] at h1
    exact le_trans h1 s1
  · rw [Set.Finite.mem_toFinset]
    exact ⟨⟨l, rfl⟩, h⟩

/-- C05, with the exceptions counted. There is a set of at most `129 * 2^407 + 2^32` scalars below q, independent of the hash function, such that every
signature verifies under the key of its maker unless the secret scalar or the nonce is in the set modulo q. These are fewer than one in `2^31`
scalars (`exceptions_rare`). -/
theorem C05_exceptions : ∃ S : Finset ℕ, S.card ≤ 129 * 2 ^ 407 + 2 ^ 32 ∧ ∀ (xof : Xof) (k : Arr Byte 57) (m : List Byte),
    keyScalar xof k.1 % q ∉ S → RFC.nonce xof (keySeed xof k.1) m % q ∉ S →
    ∃ A sig, ed448_derive_public xof k = .ok A ∧ ed448_sign xof k m = .ok sig ∧ ed448_verify xof A.1 sig.1 m = .ok (.ok true) := by
  obtain ⟨S, s1, s2⟩ := few_rejected_scalars
  refine ⟨S, s1, fun xof k m h1 h2 => ?_⟩
  obtain ⟨A, sig, a1, a2, a3, _⟩ := C05_roundtrip_partial xof k m
  refine ⟨A, sig, a1, a2, a3 ?_ ?_⟩
  · obtain ⟨A', b1, b2⟩ := derive_spec xof k
    rw [a1] at b1
    injection b1 with b1
    rw [b1, b2]
    exact s2 _ h1
  · obtain ⟨sig', b1, b2⟩ := sign_spec xof k m
    rw [a2] at b1
    injection b1 with b1
    rw [b1, b2, (sign_eq_parts xof _ _ m).1]
    exact s2 _ h2

/-- The hypotheses of `C05_exceptions` are satisfiable, whatever the set is. -/
theorem exceptions_avoidable (S : Finset ℕ) (hS : S.card ≤ 129 * 2 ^ 407 + 2 ^ 32) : ∃ (xof : Xof) (k : Arr Byte 57), ∀ m : List Byte,
    keyScalar xof k.1 % q ∉ S ∧ RFC.nonce xof (keySeed xof k.1) m % q ∉ S := by
  classical
  have hj : ∃ j < 2 ^ 445, (4 * j + 2 ^ 447) % q ∉ S := by
    by_contra h
    push Not at h
    have hc : ((Finset.range (2 ^ 445)).image fun j => (4 * j + 2 ^ 447) % q).card = 2 ^ 445 := by
      rw [Finset.card_image_of_injOn, Finset.card_range]
      intro i hi j hj hij
      have e : ∀ n < 2 ^ 445, RFC.secretScalar (leBytes 57 (4 * n)) = 4 * n + 2 ^ 447 := by
        intro n hn
        rw [RFC.secretScalar, leNat_leBytes]
        norm_num at *
        omega
      have hi' : i < 2 ^ 445 := by rwa [Finset.coe_range, Set.mem_Iio] at hi
      have hj' : j < 2 ^ 445 := by rwa [Finset.coe_range, Set.mem_Iio] at hj
      have hij' : (4 * i + 2 ^ 447) % q = (4 * j + 2 ^ 447) % q := hij
      rw [← e i hi', ← e j hj'] at hij'
      have := secretScalar_inj hij'
      rw [e i hi', e j hj'] at this
      omega
    have hle : ((Finset.range (2 ^ 445)).image fun j => (4 * j + 2 ^ 447) % q).card ≤ S.card := by
      refine Finset.card_le_card fun x hx => ?_
      obtain ⟨j, h1, rfl⟩ := Finset.mem_image.mp hx
      exact h j (Finset.mem_range.mp h1)
    rw [hc] at hle
    have : ¬ (2 ^ 445 ≤ 129 * 2 ^ 407 + 2 ^ 32) := by decide +kernel
    exact this (le_trans hle hS)
  obtain ⟨j, h1, h2⟩ := hj
  have hb : 4 * j + 2 ^ 447 < 2 ^ 448 := by omega
  generalize hs : 4 * j + 2 ^ 447 = s at *
  refine ⟨fun _ i => (leBytes 114 s).getD i 0, ⟨leBytes 57 (s + 2 ^ 455), by simp⟩, fun m => ?_⟩
  have hk : RFC.secretScalar (leBytes 57 (s + 2 ^ 455)) = s := by
    rw [RFC.secretScalar, leNat_leBytes, ← hs]
    norm_num at *
    omega
  have hsign : signBit (leBytes 57 (s + 2 ^ 455)) ≠ 0 := by
    have e : (s + 2 ^ 455) / 256 ^ 56 = 128 := by omega
    rw [show 57 = 56 + 1 from rfl, leBytes_append, signBit, List.getD_eq_getElem?_getD, List.getElem?_append_right (by simp), e, leBytes_length]
    decide
  constructor
  · rwa [keyScalar, if_neg hsign, hk]
  · have : ∀ w, RFC.nonce (fun _ i => (leBytes 114 s).getD i 0) w m = s := by
      intro w
      have e : (List.range 114).map (fun i => (leBytes 114 s).getD i 0) = leBytes 114 s := by
        apply List.ext_getElem (by simp)
        intro i h1 h2
        simp [List.getD, List.getElem?_eq_getElem h2]
      rw [RFC.nonce, RFC.hash, e, leNat_leBytes]
      refine Nat.mod_eq_of_lt (lt_trans hb ?_)
      norm_num
    rwa [this]

example : ∃ (xof : Xof) (k : Arr Byte 57), ∀ m, ∃ A sig, ed448_derive_public xof k = .ok A ∧ ed448_sign xof k m = .ok sig ∧
    ed448_verify xof A.1 sig.1 m = .ok (.ok true) := by
  obtain ⟨S, s1, s2⟩ := C05_exceptions
  obtain ⟨xof, k, h⟩ := exceptions_avoidable S s1
  exact ⟨xof, k, fun m => s2 xof k m (h m).1 (h m).2⟩

/-- C27, with the exceptions counted. -/
theorem C27_exceptions : ∃ S : Finset ℕ, S.card ≤ 129 * 2 ^ 407 + 2 ^ 32 ∧ ∀ (xof : Xof) (k : SigningKey) (_ : Obtained xof k) (h : List Byte),
    keyScalar xof k.to_bytes.1 % q ∉ S → RFC.nonce xof (keySeed xof k.to_bytes.1) h % q ∉ S →
    ∃ Sg, k.sign_prehash xof h = .ok (.ok Sg) ∧ ed448_verify xof (Sg.as_slice.drop 114) (Sg.as_slice.take 114) h = .ok (.ok true) ∧
      ed448_verify xof (Sg.as_slice.drop 114) Sg.as_slice h = .ok (.ok true) := by
  obtain ⟨S, s1, s2⟩ := few_rejected_scalars
  refine ⟨S, s1, fun xof k hk h h1 h2 => ?_⟩
  obtain ⟨Sg, e1, e2, _⟩ := C27_prehash_verifies_partial xof k hk h
  obtain ⟨sig, Sg', f1, f2, f3, f4⟩ := C26_prehash_layout xof k h
  rw [e1] at f2
  injection f2 with f2
  injection f2 with f2
  subst f2
  have hv := C20_verifying_key xof k hk
  obtain ⟨A, a1, a2⟩ := derive_spec xof k.to_bytes
  obtain ⟨sig', b1, b2⟩ := sign_spec xof k.to_bytes h
  rw [hv] at a1
  rw [f1] at b1
  injection a1 with a1
  injection b1 with b1
  have g1 : Sg.as_slice.drop 114 = k.get_verifying_key.key.1 := by rw [f4, List.drop_left' sig.2]; rfl
  have g2 : Sg.as_slice.take 57 = sig.1.take 57 := by rw [f4, List.take_append_of_le_length (by rw [sig.2]; norm_num)]
  refine ⟨Sg, e1, e2 ?_ ?_⟩
  · rw [g1, a1, a2]
    exact s2 _ h1
  · rw [g2, b1, b2, (sign_eq_parts xof _ _ h).1]
    exact s2 _ h2

/-! ### Strings that describe no point and are accepted -/

/-- The polynomial satisfied by the numbers that are no y coordinates and for which the decoder finds the defect `v`. -/
noncomputable def offPoly (v : F) : F[X] :=
  C (8 * edD ^ 4) * X ^ 14 + C (-48 * edD ^ 3 - 8 * edD ^ 4) * X ^ 12 + C (104 * edD ^ 2 + 64 * edD ^ 3) * X ^ 10 +
    C (-96 * edD - 168 * edD ^ 2 - 16 * edD ^ 3 - edD ^ 4 * v) * X ^ 8 + C (32 + 176 * edD + 72 * edD ^ 2 + 4 * edD ^ 3 * v) * X ^ 6 +
    C (-64 - 96 * edD - 8 * edD ^ 2 - 6 * edD ^ 2 * v) * X ^ 4 + C (40 + 16 * edD + 4 * edD * v) * X ^ 2 + C (-8 - v)

theorem offPoly_coeff (v : F) : (offPoly v).coeff 14 = 8 * edD ^ 4 := by
  unfold offPoly
  simp only [coeff_add, coeff_C_mul, coeff_X_pow, coeff_C]
  norm_num

theorem offPoly_ne (v : F) : offPoly v ≠ 0 := by
  intro h
  have := offPoly_coeff v
  rw [h, coeff_zero] at this
  rcases mul_eq_zero.mp this.symm with h1 | h1
  · exact F_two_ne_zero (pow_eq_zero_iff (three_ne_zero) |>.mp (show (2 : F) ^ 3 = 0 by linear_combination h1))
  · exact edD_ne_zero (pow_eq_zero_iff (four_ne_zero) |>.mp h1)

theorem offPoly_deg (v : F) : (offPoly v).natDegree ≤ 14 := by
  unfold offPoly
  compute_degree

theorem offPoly_eval {y : F} (h : ¬ ∃ A : E, A.y = y) : (offPoly (imageDefect (xCand y) y)).eval y = 0 := by
  have hx := xCand_sq_off h
  unfold offPoly imageDefect
  simp only [eval_add, eval_mul, eval_C, eval_pow, eval_X]
  clear h
  generalize xCand y = x at *
  generalize edD = d at *
  have h2 : x ^ 2 * (1 - d * y ^ 2) = y ^ 2 - 1 := by linear_combination hx
  clear hx
  generalize hs : x ^ 2 = s at *
  generalize hu : y ^ 2 = u at *
  generalize hw : 1 - d * u = w at *
  have e : ∀ V : F, 8 * d ^ 4 * y ^ 14 + (-48 * d ^ 3 - 8 * d ^ 4) * y ^ 12 + (104 * d ^ 2 + 64 * d ^ 3) * y ^ 10 +
      (-96 * d - 168 * d ^ 2 - 16 * d ^ 3 - d ^ 4 * V) * y ^ 8 + (32 + 176 * d + 72 * d ^ 2 + 4 * d ^ 3 * V) * y ^ 6 +
      (-64 - 96 * d - 8 * d ^ 2 - 6 * d ^ 2 * V) * y ^ 4 + (40 + 16 * d + 4 * d * V) * u + (-8 - V) =
      ((u * w - (u - 1)) * (u * w + (u - 1))) ^ 2 - 4 * ((u - 1) * u * w) * (2 * w - (u - 1) - u * w) ^ 2 -
      ((u * w - (u - 1)) * (2 * w - (u - 1) - u * w)) ^ 2 + 4 * (1 - d) * ((u - 1) * u * w) * ((u - 1) + u * w) ^ 2 - V * w ^ 4 := by
    intro V
    rw [← hw, ← hu]
    ring
  rw [e]
  have e2 : (((u - s) * (s + u)) ^ 2 - (2 * x * y * (2 - s - u)) ^ 2 - ((u - s) * (2 - s - u)) ^ 2 + (1 - d) * (2 * x * y * (s + u)) ^ 2) * w ^ 4 =
      ((u * w - s * w) * (u * w + s * w)) ^ 2 - 4 * (s * w * u * w) * (2 * w - s * w - u * w) ^ 2 -
      ((u * w - s * w) * (2 * w - s * w - u * w)) ^ 2 + 4 * (1 - d) * (s * w * u * w) * (s * w + u * w) ^ 2 := by
    rw [← hs, ← hu]
    ring
  rw [e2, h2, sub_self]

/-- The strings of 57 bytes without padding bits whose y is in a given finite set modulo p. -/
theorem few_strings (S : Finset F) : ∃ T : Finset (List Byte), T.card ≤ 4 * S.card ∧
    ∀ b : List Byte, b.length = 57 → padBits b = 0 → (yNat b : F) ∈ S → b ∈ T := by
  classical
  have hm : Set.MapsTo (fun b : List Byte => ((yNat b : F), (yNat b / p, signBit b))) {b | b.length = 57 ∧ padBits b = 0 ∧ (yNat b : F) ∈ S}
      (S ×ˢ (Finset.range 2 ×ˢ Finset.range 2) : Finset (F × (ℕ × ℕ))) := by
    rintro b ⟨h1, h2, h3⟩
    simp only [Finset.coe_product, Set.mem_prod, Finset.mem_coe, Finset.mem_range]
    refine ⟨h3, ?_, signBit_lt b⟩
    have h4 := yNat_lt h1
    rw [Nat.div_lt_iff_lt_mul (by rw [p_def]; decide +kernel)]
    refine lt_of_lt_of_le h4 ?_
    rw [p_def]
    decide +kernel
  have hi : Set.InjOn (fun b : List Byte => ((yNat b : F), (yNat b / p, signBit b))) {b | b.length = 57 ∧ padBits b = 0 ∧ (yNat b : F) ∈ S} := by
    rintro b ⟨h1, h2, _⟩ c ⟨h1', h2', _⟩ h
    simp only [Prod.mk.injEq] at h
    obtain ⟨e1, e2, e3⟩ := h
    have e4 : yNat b = yNat c := by
      rw [ZMod.natCast_eq_natCast_iff'] at e1
      rw [← Nat.div_add_mod (yNat b) p, ← Nat.div_add_mod (yNat c) p, e1, e2]
    have e5 : b.take 56 = c.take 56 := leNat_inj (by rw [List.length_take, List.length_take, h1, h1']) e4
    have e6 : b.getD 56 0 = c.getD 56 0 := by
      apply BitVec.eq_of_toNat_eq
      unfold padBits at h2 h2'
      unfold signBit at e3
      omega
    have split : ∀ l : List Byte, l.length = 57 → l = l.take 56 ++ [l.getD 56 0] := by
      intro l hl
      have h := List.take_append_drop 56 l
      rw [List.drop_eq_getElem_cons (by omega), List.drop_of_length_le (by omega)] at h
      rw [show l.getD 56 0 = l[56] by simp [List.getD, List.getElem?_eq_getElem (show 56 < l.length by omega)]]
      exact h.symm
    rw [split b h1, split c h1', e5, e6]
  have hf := Set.Finite.of_injOn hm hi (Finset.finite_toSet _)
  refine ⟨hf.toFinset, ?_, fun b h1 h2 h3 => by rw [Set.Finite.mem_toFinset]; exact ⟨h1, h2, h3⟩⟩
  rw [← Set.ncard_eq_toFinset_card _ hf]
  refine le_trans (Set.ncard_le_ncard_of_injOn _ hm hi (Finset.finite_toSet _)) ?_
  rw [Set.ncard_coe_finset, Finset.card_product, Finset.card_product, Finset.card_range, mul_comm]

/-- C30, with the exceptions counted. The strings that describe no point and are accepted by the decoder form a set T of at most `56 * 2^28` strings. All other
strings of 57 bytes (of which there are `2^456`) that have a padding bit set or describe no point are rejected as keys. -/
theorem C30_exceptions : ∃ T : Finset (List Byte), T.card ≤ 56 * 2 ^ 28 ∧ (∀ b, b ∈ T ↔ Accepted b ∧ ¬ ∃ A : E, A.y = (yNat b : F)) ∧
    ∀ (xof : Xof) (pk sig m : List Byte), pk.length = 57 → ¬ ZeroInput pk sig → (padBits pk ≠ 0 ∨ ¬ ∃ A : E, A.y = (yNat pk : F)) → pk ∉ T →
      ed448_verify xof pk sig m = .ok (.error .DecodePubkeyError) := by
  classical
  obtain ⟨S, s1, s2⟩ := few_roots offPoly 14 offPoly_ne offPoly_deg
  obtain ⟨T, t1, t2⟩ := few_strings S
  refine ⟨T.filter fun b => Accepted b ∧ ¬ ∃ A : E, A.y = (yNat b : F), ?_, ?_, ?_⟩
  · have := Finset.card_filter_le T fun b => Accepted b ∧ ¬ ∃ A : E, A.y = (yNat b : F)
    omega
  · intro b
    rw [Finset.mem_filter]
    exact ⟨fun h => h.2, fun h => ⟨t2 b h.1.1 h.1.2.1 (s2 _ _ h.1.2.2.2.1 (offPoly_eval h.2)), h⟩⟩
  · intro xof pk sig m hl hz h hT
    refine (C08_errors ..).mpr (Or.inr (Or.inr (Or.inl ⟨hz, hl, fun ha => hT ?_, rfl⟩)))
    have h' := h.resolve_left (not_not.mpr ha.2.1)
    rw [Finset.mem_filter]
    exact ⟨t2 pk hl ha.2.1 (s2 _ _ ha.2.2.2.1 (offPoly_eval h')), ha, h'⟩

/-- The set of exceptions is not empty, and the string of 57 ones is rejected. -/
theorem ones_rejected : ∃ T : Finset (List Byte), Witness.offKey ∈ T ∧ ∀ (xof : Xof) (m : List Byte),
    ed448_verify xof (List.replicate 57 1) [] m = .ok (.error .DecodePubkeyError) := by
  obtain ⟨T, _, t2, t3⟩ := C30_exceptions
  refine ⟨T, (t2 _).mpr ⟨Witness.offKey_accepted, by rw [Witness.offKey_y]; exact Witness.off_not_point⟩, fun xof m => ?_⟩
  have hp : padBits (List.replicate 57 (1 : Byte)) ≠ 0 := by decide +kernel
  refine t3 xof _ _ m (by simp) ?_ (Or.inl hp) fun h => hp ((t2 _).mp h).1.2.1
  rw [ZeroInput]
  decide +kernel

end Ed448
