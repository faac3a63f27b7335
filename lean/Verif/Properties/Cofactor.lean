import Verif.Properties.Forgery

/-!
# The number of valid signatures, and the cofactor in the verification equation: C75, C76
-/

set_option exponentiation.threshold 1000

namespace Ed448

/-! ## C75 -/

/-- C46, existence: for every key, every R and every challenge there is an S that satisfies the equation; it is unique modulo the order by
`C46_unique_S`. -/
theorem C46_exists_S (R A : E) (c : ℕ) : ∃ S, S < q ∧ RFC.Equation S R A c := by
  obtain ⟨n, _, hn⟩ := four_mem_B (R + c • A)
  obtain ⟨k, hk⟩ : ∃ k, q + 1 = 4 * k := ⟨(q + 1) / 4, by have := q_mod_four; omega⟩
  refine ⟨k * n % q, Nat.mod_lt _ q_pos, ?_⟩
  rw [RFC.Equation, smul_B_mod, ← smul_add, hn, smul_smul, ← mul_assoc, ← hk, add_mul, one_mul, add_smul, mul_comm, mul_smul, q_smul_B, smul_zero,
    zero_add]

/-- The sum of the key and of R need not be a multiple of the base point. -/
example : ∃ S, S < q ∧ RFC.Equation S (B + T2) (3 • B + T4) 5 := C46_exists_S _ _ _

/-- C75. For a given key, message and first half of the signature exactly one signature is valid by RFC 8032. -/
theorem C75_one_S (xof : Xof) (pk r m : List Byte) (A R : E) (hA : RFC.DecodesTo pk A) (hR : RFC.DecodesTo r R) :
    ∃! s, RFC.Valid xof pk m (r ++ s) := by
  have hr := hR.1
  obtain ⟨S, hS, he⟩ := C46_exists_S R A (RFC.challenge xof r pk m)
  have hl : leNat (leBytes 57 S) = S := by
    rw [leNat_leBytes, Nat.mod_eq_of_lt]
    exact hS.trans (by rw [q_def]; decide +kernel)
  refine ⟨leBytes 57 S, ⟨by rw [List.length_append, hr, leBytes_length], A, R, hA, by rw [List.take_left' hr]; exact hR, ?_, ?_⟩, ?_⟩
  · rw [List.drop_left' hr, hl]; exact hS
  · rw [List.drop_left' hr, List.take_left' hr, hl]; exact he
  · rintro s ⟨h1, A', R', hA', hR', h2, h3⟩
    rw [List.take_left' hr] at hR' h3
    rw [List.drop_left' hr] at h2 h3
    rw [decodesTo_iff] at hA hR hA' hR'
    obtain rfl := encodePoint_inj.mp (hA.symm.trans hA')
    obtain rfl := encodePoint_inj.mp (hR.symm.trans hR')
    have h4 := C46_unique_S _ _ _ _ _ h3 he
    rw [Nat.mod_eq_of_lt h2, Nat.mod_eq_of_lt hS] at h4
    rw [List.length_append, hr] at h1
    rw [← h4, show 57 = s.length by omega, leBytes_leNat]

/-- C75. Under every key that describes a point of the curve, every message has exactly 4q valid signatures in the sense of RFC 8032: one for
each point of the curve as R. -/
theorem C75_valid_count (xof : Xof) (pk m : List Byte) (A : E) (hA : RFC.DecodesTo pk A) :
    Set.ncard {sig | RFC.Valid xof pk m sig} = 4 * q := by
  have hex : ∀ R : E, ∃ s, RFC.Valid xof pk m (encodePoint R ++ s) := fun R =>
    (C75_one_S xof pk _ m A R hA (decodesTo_iff.mpr rfl)).exists
  choose f hf using hex
  have e : {sig | RFC.Valid xof pk m sig} = (fun R : E => encodePoint R ++ f R) '' Set.univ := by
    ext sig
    simp only [Set.mem_ofPred_eq, Set.image_univ, Set.mem_range]
    constructor
    · intro h
      obtain ⟨_, A', R, _, hR, _⟩ := id h
      refine ⟨R, ?_⟩
      have h1 := decodesTo_iff.mp hR
      have h2 : RFC.Valid xof pk m (encodePoint R ++ sig.drop 57) := by
        rw [← h1, List.take_append_drop]; exact h
      rw [(C75_one_S xof pk _ m A R hA (decodesTo_iff.mpr rfl)).unique (hf R) h2, ← h1, List.take_append_drop]
    · rintro ⟨R, rfl⟩
      exact hf R
  rw [e, Set.InjOn.ncard_image, Set.ncard_univ, C68_card]
  intro R _ R' _ h
  have := congrArg (List.take 57) h
  simp only at this
  rw [List.take_left' (encodePoint_length _), List.take_left' (encodePoint_length _)] at this
  exact encodePoint_inj.mp this

/-- The key and the message of the example of RFC 8032 beside C02: any hash function, the base point as key. -/
example (xof : Xof) : Set.ncard {sig | RFC.Valid xof (encodePoint B) [3] sig} = 4 * q := C75_valid_count xof _ _ B (decodesTo_iff.mpr rfl)

theorem two_456_div_q : 2 ^ 456 / q = 1024 := by rw [q_def]; decide +kernel

/-- C75. For a key and a first half of the signature that this library accepts, exactly 1024 or 1025 of the 57-byte strings S satisfy the
verification equation, and the library accepts the signature for each of them. -/
theorem C75_accepted_S (xof : Xof) (pk r m : List Byte) (A R : E) (hp : Accepted pk) (hA : Decodes pk A) (hz : pk ≠ List.replicate 57 0)
    (hr : Accepted r) (hR : Decodes r R) (hrz : r ≠ List.replicate 57 0) :
    let holds := fun s : Arr Byte 57 => RFC.Equation (leNat s.1) R A (RFC.challenge xof r (encodePoint ((q + 1) • A)) m)
    (Set.ncard {s | holds s} = 1024 ∨ Set.ncard {s | holds s} = 1025) ∧ ∀ s, holds s → ed448_verify xof pk (r ++ s.1) m = .ok (.ok true) := by
  intro holds
  have hl : r.length = 57 := hr.1
  generalize hc : RFC.challenge xof r (encodePoint ((q + 1) • A)) m = c at *
  obtain ⟨S, hS, he⟩ := C46_exists_S R A c
  constructor
  · have e : {s | holds s} = {s : Arr Byte 57 | leNat s.1 % q = S} := by
      ext s
      simp only [Set.mem_ofPred_eq]
      constructor
      · intro h
        have h1 : RFC.Equation (leNat s.1) R A c := hc ▸ h
        rw [C46_unique_S _ _ _ _ _ h1 he, Nat.mod_eq_of_lt hS]
      · intro h
        show RFC.Equation (leNat s.1) R A (RFC.challenge xof r (encodePoint ((q + 1) • A)) m)
        rw [hc, RFC.Equation, ← smul_B_mod, h]
        exact he
    have h1 := ncard_arrays 57 (fun v => v % q = S)
    rw [show 256 ^ 57 = 2 ^ 456 by norm_num] at h1
    rw [e, h1]
    have h2 := ncard_residue (2 ^ 456) q S q_pos hS
    rw [two_456_div_q] at h2
    exact h2
  · intro s h
    have htake : (r ++ s.1).take 57 = r := List.take_left' hl
    have hdrop : ((r ++ s.1).drop 57).take 57 = s.1 := by rw [List.drop_left' hl, List.take_of_length_le (by rw [s.2])]
    refine C07_complete xof pk _ m A R ?_ hp hA (by rw [List.length_append, hl, s.2]) (by rw [htake]; exact hr) (by rw [htake]; exact hR) ?_
    · rintro (h | h)
      · exact hz h
      · have := congrArg (List.take 57) h
        rw [htake] at this
        exact hrz (this.trans (by rw [List.take_replicate]; rfl))
    · rw [htake, hdrop]; exact h

/-- The base point as key and as R. -/
example : Accepted (encodePoint B) ∧ Decodes (encodePoint B) B ∧ encodePoint B ≠ List.replicate 57 0 :=
  ⟨Witness.B_accepted, decodes_encode B, by have := encode_smul_B_ne_zero 1; rwa [one_smul] at this⟩

/-- C75. Under every accepted key that describes a point, this library accepts for every message at least `1024 (4q - 129 * 2^407 - 2^32 - 1)` signatures of 114 bytes,
about 1024 times as many as are valid by RFC 8032. -/
theorem C75_accepted_count (xof : Xof) (pk m : List Byte) (A : E) (hp : Accepted pk) (hA : Decodes pk A) (hz : pk ≠ List.replicate 57 0) :
    1024 * (4 * q - (129 * 2 ^ 407 + 2 ^ 32) - 1) ≤ Set.ncard {sig : List Byte | sig.length = 114 ∧ ed448_verify xof pk sig m = .ok (.ok true)} := by
  classical
  let U : Set (List Byte) := {r | ((∃ R : E, RFC.DecodesTo r R) ∧ Accepted r)} \ {List.replicate 57 0}
  have hU : 4 * q - (129 * 2 ^ 407 + 2 ^ 32) - 1 ≤ U.ncard := by
    have h1 := Set.le_ncard_sdiff ({List.replicate 57 0} : Set (List Byte)) {r : List Byte | ((∃ R : E, RFC.DecodesTo r R) ∧ Accepted r)}
    rw [Set.ncard_singleton] at h1
    exact le_trans (Nat.sub_le_sub_right C68_accepted.1 1) h1
  have hex : ∀ r : List Byte, ∃ S, r ∈ U → S < q ∧ ∀ v : ℕ, v < 2 ^ 456 → v % q = S → ed448_verify xof pk (r ++ leBytes 57 v) m = .ok (.ok true) := by
    intro r
    by_cases hr : r ∈ U
    · obtain ⟨⟨⟨R, hR⟩, ha⟩, hn⟩ := hr
      have hd : Decodes r R := by rw [decodesTo_iff.mp hR]; exact decodes_encode R
      obtain ⟨S, hS, he⟩ := C46_exists_S R A (RFC.challenge xof r (encodePoint ((q + 1) • A)) m)
      refine ⟨S, fun _ => ⟨hS, fun v hv hvS => ?_⟩⟩
      refine (C75_accepted_S xof pk r m A R hp hA hz ha hd hn).2 ⟨leBytes 57 v, leBytes_length 57 v⟩ ?_
      show RFC.Equation (leNat (leBytes 57 v)) R A _
      rw [leNat_leBytes, Nat.mod_eq_of_lt (by rw [show 256 ^ 57 = 2 ^ 456 by norm_num]; exact hv), RFC.Equation, ← smul_B_mod, hvS]
      exact he
    · exact ⟨0, fun h => absurd h hr⟩
  choose S hS using hex
  have hq : 1024 * q < 2 ^ 456 := by rw [q_def]; decide +kernel
  have hb : ∀ r ∈ U, ∀ i < 1024, S r + i * q < 2 ^ 456 := fun r hr i hi => by
    have h1 : i * q ≤ 1023 * q := Nat.mul_le_mul_right _ (by omega)
    have h2 := (hS r hr).1
    omega
  let f : List Byte × ℕ → List Byte := fun x => x.1 ++ leBytes 57 (S x.1 + x.2 * q)
  have hlen : ∀ r ∈ U, r.length = 57 := fun r hr => hr.1.2.1
  have hinj : Set.InjOn f (U ×ˢ Set.Iio 1024) := by
    rintro ⟨r, i⟩ ⟨hr, hi⟩ ⟨r', j⟩ ⟨hr', hj⟩ h
    simp only [Set.mem_Iio] at hr hi hr' hj
    have h1 : r = r' := by
      have := congrArg (List.take 57) h
      simp only [f] at this
      rwa [List.take_left' (hlen r hr), List.take_left' (hlen r' hr')] at this
    subst h1
    have h2 := leBytes_inj (by rw [show 256 ^ 57 = 2 ^ 456 by norm_num]; exact hb r hr i hi)
      (by rw [show 256 ^ 57 = 2 ^ 456 by norm_num]; exact hb r hr j hj) (List.append_cancel_left h)
    exact congrArg (Prod.mk r) (Nat.eq_of_mul_eq_mul_right q_pos (Nat.add_left_cancel h2))
  have hsub : f '' (U ×ˢ Set.Iio 1024) ⊆ {sig : List Byte | sig.length = 114 ∧ ed448_verify xof pk sig m = .ok (.ok true)} := by
    rintro _ ⟨⟨r, i⟩, ⟨hr, hi⟩, rfl⟩
    simp only [Set.mem_Iio] at hr hi
    refine ⟨by simp only [f]; rw [List.length_append, hlen r hr, leBytes_length], (hS r hr).2 _ (hb r hr i hi) ?_⟩
    rw [Nat.add_mul_mod_self_right, Nat.mod_eq_of_lt (hS r hr).1]
  have hfin : Set.Finite {sig : List Byte | sig.length = 114 ∧ ed448_verify xof pk sig m = .ok (.ok true)} := by
    have : Finite Byte := Finite.of_injective _ BitVec.toFin_injective
    have h0 : Set.Finite (Set.range (List.ofFn : (Fin 114 → Byte) → List Byte)) := Set.finite_range _
    refine h0.subset fun sig h => ⟨fun i => sig.get (i.cast h.1.symm), ?_⟩
    exact List.ext_get (by rw [List.length_ofFn]; exact h.1.symm) (fun i h1 h2 => by rw [List.get_ofFn]; rfl)
  refine le_trans ?_ (Set.ncard_le_ncard hsub hfin)
  rw [hinj.ncard_image, Set.ncard_prod, mul_comm]
  have h3 : (Set.Iio 1024 : Set ℕ).ncard = 1024 := by
    rw [← Finset.coe_Iio, Set.ncard_coe_finset, Nat.card_Iio]
  rw [h3]
  exact Nat.mul_le_mul_right _ hU

/-! ## C76 -/

/-- C76. Verification is cofactored, as RFC 8032 allows: who holds the secret can add to the point R any point T of order dividing 4. The
result is accepted by this library and valid by RFC 8032, but the equation without the factor 4, which some other implementations check, holds for it only
if T is neutral. -/
theorem C76_cofactored (xof : Xof) (k A : Arr Byte 57) (m : List Byte) (r : ℕ) (T : E) (hT : 4 • T = 0) (hA : ed448_derive_public xof k = .ok A)
    (ha : Accepted A.1) (hr : Accepted (encodePoint (r • B + T))) (hz : encodePoint (r • B + T) ≠ List.replicate 57 0) :
    let c := RFC.challenge xof (encodePoint (r • B + T)) A.1 m
    let S := (r + c * keyScalar xof k.1) % q
    let sig := encodePoint (r • B + T) ++ leBytes 57 S
    ed448_verify xof A.1 sig m = .ok (.ok true) ∧ RFC.Valid xof A.1 m sig ∧
      ∀ P, RFC.DecodesTo A.1 P → (S • B = (r • B + T) + c • P ↔ T = 0) := by
  obtain ⟨A', a1, a2⟩ := derive_spec xof k
  obtain rfl := Except.ok.inj (hA.symm.trans a1)
  intro c S sig
  have hS : S < q := Nat.mod_lt _ q_pos
  have hSB : S • B = r • B + c • (keyScalar xof k.1 • B) := by
    show ((r + c * keyScalar xof k.1) % q) • B = _
    rw [smul_B_mod, add_smul, mul_smul]
  have hd : RFC.DecodesTo A.1 (keyScalar xof k.1 • B) := decodesTo_iff.mpr a2
  have heq : RFC.Equation S (r • B + T) (keyScalar xof k.1 • B) c := by
    rw [RFC.Equation, hSB, smul_add, smul_add, hT, add_zero]
  have hl : (encodePoint (r • B + T)).length = 57 := encodePoint_length _
  have hS' : leNat (leBytes 57 S) = S := by
    rw [leNat_leBytes, Nat.mod_eq_of_lt]
    exact hS.trans (by rw [q_def]; decide +kernel)
  refine ⟨?_, ⟨?_, keyScalar xof k.1 • B, r • B + T, hd, ?_, ?_, ?_⟩, ?_⟩
  · refine (C75_accepted_S xof A.1 _ m _ (r • B + T) ha (by rw [a2]; exact decodes_encode _) (by rw [a2]; exact encode_smul_B_ne_zero _) hr (decodes_encode _) hz).2
      ⟨leBytes 57 S, leBytes_length 57 S⟩ ?_
    show RFC.Equation (leNat (leBytes 57 S)) _ _ _
    rw [hS', cleared_smul_B, ← a2]
    exact heq
  · show (encodePoint (r • B + T) ++ leBytes 57 S).length = 114
    rw [List.length_append, hl, leBytes_length]
  · show RFC.DecodesTo ((encodePoint (r • B + T) ++ leBytes 57 S).take 57) (r • B + T)
    rw [List.take_left' hl]; exact decodesTo_iff.mpr rfl
  · show leNat ((encodePoint (r • B + T) ++ leBytes 57 S).drop 57) < q
    rw [List.drop_left' hl, hS']; exact hS
  · show RFC.Equation (leNat ((encodePoint (r • B + T) ++ leBytes 57 S).drop 57)) _ _ (RFC.challenge xof ((encodePoint (r • B + T) ++ leBytes 57 S).take 57) _ _)
    rw [List.drop_left' hl, List.take_left' hl, hS']; exact heq
  · intro P hP
    have : P = keyScalar xof k.1 • B := encodePoint_inj.mp ((decodesTo_iff.mp hP).symm.trans a2)
    subst this
    rw [hSB]
    generalize c • (keyScalar xof k.1 • B) = Q
    constructor
    · intro h
      rw [add_right_comm] at h
      exact (left_eq_add.mp h)
    · rintro rfl
      rw [add_zero]

/-- The key of the example beside C05, the nonce 1 and the point of order 2. -/
example : 4 • T2 = 0 ∧ T2 ≠ 0 ∧ Accepted (encodePoint (1 • B + T2)) ∧ encodePoint (1 • B + T2) ≠ List.replicate 57 0 ∧
    ∃ A, ed448_derive_public Witness.oneXof Witness.key0 = .ok A ∧ Accepted A.1 := by
  refine ⟨?_, T2_ne_zero, ?_, fun h => ?_, ?_⟩
  · rw [show 4 = 2 * 2 from rfl, mul_smul, two_smul, two_smul, T2_double, add_zero]
  · rw [accepted_of_coords Witness.B_T2_coords.1 Witness.B_T2_coords.2 (by decide +kernel)]
    decide +kernel
  · rw [encode_of_coords Witness.B_T2_coords.1 Witness.B_T2_coords.2 (by decide +kernel) (by decide +kernel)] at h
    exact absurd h (by decide +kernel)
  · obtain ⟨A, a1, a2⟩ := C03_derive_direct Witness.oneXof Witness.key0 Witness.key0_sign
    exact ⟨A, a1, by rw [a2]; exact Witness.key0_accepted⟩

end Ed448
