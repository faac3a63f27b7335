import Verif.Leak.Tables
import Verif.Checked.Api
import Verif.Properties.Keys

/-!
# Which positions of the precomputed table are read, as a function of the secret
-/

set_option exponentiation.threshold 1000

namespace Ed448

namespace Leak

theorem tabOf_position (b0 b1 b2 b3 b4 : Bool) :
    ((tabOf b0 b1 b2 b3 b4 ^^^ BitVec.ofInt 32 ((tabOf b0 b1 b2 b3 b4).toInt / 2 ^ 4 - 1)) &&& BitVec.ofNat 32 15).toNat =
      (if b0 = b4 then 1 else 0) + (if b1 = b4 then 2 else 0) + (if b2 = b4 then 4 else 0) + (if b3 = b4 then 8 else 0) := by
  revert b0 b1 b2 b3 b4
  decide

theorem combSelect_position (s : List W32) (hs : s.length = 14) (hl : wordsNat s < 2 ^ 446) (i j : ℕ) :
    Reads [combPosition (wordsNat s) i j] (combSelect s i j) := by
  refine combSelect_reads s i j _ fun tab htab => ?_
  rw [Chk.combTab_eq, combTab_step s hs hl, combTab_step s hs hl, combTab_step s hs hl, combTab_step s hs hl, combTab_step s hs hl, Ed448.combTab] at htab
  have htab : tabOf (combBit (wordsNat s) i j 0) (combBit (wordsNat s) i j 1) (combBit (wordsNat s) i j 2) (combBit (wordsNat s) i j 3)
    (combBit (wordsNat s) i j 4) = tab := by
    injection htab
  rw [← htab, tabOf_position, combPosition, Nat.shiftLeft_eq]
  have e : ∀ k, combBit (wordsNat s) i j k = (wordsNat s).testBit (i + 90 * j + 18 * k) := fun k => by
    unfold combBit
    congr 1
    ring
  simp only [e, Finset.sum_range_succ, Finset.sum_range_zero]
  norm_num
  ring

/-- The positions for a scalar less than `q`. -/
theorem precomputed_scalar_mul_positions {s : Scalar} (hs : s.val < q) :
    Reads (combPositions (adjHalf s).val) (precomputed_scalar_mul s.1) := by
  have hlt : (adjHalf s).val < 2 ^ 446 := lt_trans (adjHalf_lt hs) q_lt
  have := precomputed_scalar_mul_reads s.1 (combPosition (adjHalf s).val) (fun a s2 ha hs2 i j => by
    rw [Chk.add_eq] at ha
    cases ha
    rw [Chk.halve_eq] at hs2
    cases hs2
    exact combSelect_position _ (adjHalf s).2 hlt i j)
  unfold combPositions
  simpa only [List.map_eq_flatMap] using this

theorem combOf_quarter {s : Scalar} (hs : s.val < q) : CombOf s.val (adjHalf (Ed448.halve (Ed448.halve s))).val := by
  have h1 := halve_spec s hs
  have h2 := halve_spec _ h1.1
  refine ⟨adjHalf_lt h2.1, ?_⟩
  have ha : scalar_adjustment.val < q := by rw [scalar_adjustment_val]; exact Nat.mod_lt _ q_pos
  have h3 := scalarAdd_val (Ed448.halve (Ed448.halve s)) scalar_adjustment (by have := h2.1; omega)
  have h4 := (halve_spec (scalarAdd (Ed448.halve (Ed448.halve s)) scalar_adjustment) (by rw [h3]; exact Nat.mod_lt _ q_pos)).2
  rw [h3, scalar_adjustment_val, Nat.add_mod_mod] at h4
  have h5 : 2 * (adjHalf (Ed448.halve (Ed448.halve s))).val ≡ (Ed448.halve (Ed448.halve s)).val + (2 ^ 450 - 1) [MOD q] := h4.trans rfl
  have e1 : 2 * (Ed448.halve (Ed448.halve s)).val ≡ (Ed448.halve s).val [MOD q] := by
    show _ % q = _ % q
    rw [h2.2, Nat.mod_eq_of_lt h1.1]
  have e2 : 2 * (Ed448.halve s).val ≡ s.val [MOD q] := by
    show _ % q = _ % q
    rw [h1.2, Nat.mod_eq_of_lt hs]
  generalize 2 ^ 450 - 1 = c at *
  have h6 := h5.mul_left 4
  have h7 : 4 * (Ed448.halve (Ed448.halve s)).val ≡ s.val [MOD q] := by
    have := (e1.mul_left 2).trans e2
    rwa [← Nat.mul_assoc] at this
  rw [← Nat.mul_assoc, Nat.mul_add] at h6
  exact h6.trans (h7.add_right _)

theorem combOf_unique {n h h' : ℕ} (hh : CombOf n h) (hh' : CombOf n h') : h = h' := by
  have h1 : 8 * h ≡ 8 * h' [MOD q] := hh.2.trans hh'.2.symm
  have hc : Nat.Coprime q 8 := by
    have := q_odd
    rw [show (8 : ℕ) = 2 ^ 3 from rfl]
    exact Nat.Coprime.pow_right 3 ((Nat.coprime_two_right).2 (Nat.odd_iff.2 this))
  have h2 := Nat.ModEq.cancel_left_of_coprime hc h1
  have h3 : h % q = h' % q := h2
  rwa [Nat.mod_eq_of_lt hh.1, Nat.mod_eq_of_lt hh'.1] at h3

theorem combOf_mod {n h : ℕ} : CombOf (n % q) h ↔ CombOf n h := by
  unfold CombOf
  have : n % q + 4 * (2 ^ 450 - 1) ≡ n + 4 * (2 ^ 450 - 1) [MOD q] := (Nat.mod_modEq n q).add_right _
  exact ⟨fun h => ⟨h.1, h.2.trans this⟩, fun h => ⟨h.1, h.2.trans this.symm⟩⟩

/-- Reading a scalar, dividing by four and multiplying the base point. -/
theorem quarter_mul_reads {b : List Byte} {h : ℕ} (hh : CombOf (leNat b) h) {f : List W32 → Leak Pt} (r : List W32)
    (hr : (decode_long b).result = .ok r) (hf : f = fun r => do
      let r ← halve r
      let r ← halve r
      precomputed_scalar_mul r) : Reads (combPositions h) (f r) := by
  rw [decode_long_result, Chk.decode_long_eq] at hr
  cases hr
  rw [hf]
  have hlt : (Ed448.decode_long b).val < q := by rw [decode_long_val]; exact Nat.mod_lt _ q_pos
  refine .after (halve_quiet ..) fun r hr => .after (halve_quiet ..) fun r' hr' => ?_
  rw [halve_result, Chk.halve_eq] at hr
  cases hr
  rw [halve_result, Chk.halve_eq] at hr'
  cases hr'
  have h1 := combOf_quarter hlt
  rw [decode_long_val, combOf_mod] at h1
  rw [combOf_unique hh h1]
  exact precomputed_scalar_mul_positions (halve_spec _ (halve_spec _ hlt).1).1

theorem point_by_secret_reads {b : Arr Byte 57} {h : ℕ} (hh : CombOf (RFC.secretScalar b.1) h) : Reads (combPositions h) (point_by_secret b.1) := by
  unfold point_by_secret
  refine .after (clamp_quiet ..) fun d hd => .after (decode_long_quiet ..) fun r hr => ?_
  rw [clamp_result, Chk.clamp_eq _ (by norm_num)] at hd
  cases hd
  refine quarter_mul_reads ?_ r hr rfl
  rwa [show (Ed448.clamp b).1 = clampList b.1 from rfl, clamp_val b.2]

theorem secret_to_public_reads {b : Arr Byte 57} {h : ℕ} (hh : CombOf (RFC.secretScalar b.1) h) : Reads (combPositions h) (secret_to_public b.1) := by
  unfold secret_to_public
  exact .before (point_by_secret_reads hh) fun _ => eddsa_like_encode_quiet ..

theorem private_to_public_reads {xof : Xof} {k : Arr Byte 57} {h : ℕ} (hh : CombOf (RFC.secretScalar ((RFC.hash xof k.1 114).take 57)) h) :
    Reads (combPositions h) (private_to_public xof k.1) := by
  unfold private_to_public
  refine .after (private_to_secret_quiet ..) fun s hs => ?_
  rw [private_to_secret_result, Chk.private_to_secret_eq] at hs
  cases hs
  refine secret_to_public_reads ?_
  rwa [private_to_secret_scalar]

theorem signTail_reads {xof : Xof} {point : Pt} {sec : List W32} {seed m : List Byte} {g : ℕ} (hg : CombOf (RFC.nonce xof seed m) g) :
    Reads (combPositions g) (signTail xof point sec seed m) := by
  unfold signTail
  refine .after (.hash_with_dom ..) fun n hn => .after (decode_long_quiet ..) fun r hr => ?_
  cases hn
  rw [RFC.nonce, List.append_assoc, ← hash_with_dom_eq] at hg
  rw [decode_long_result, Chk.decode_long_eq] at hr
  cases hr
  have hlt : (Ed448.decode_long (Ed448.hash_with_dom xof (seed ++ m) 114).1).val < q := by rw [decode_long_val]; exact Nat.mod_lt _ q_pos
  refine .after (halve_quiet ..) fun r hr => .after (halve_quiet ..) fun r' hr' => ?_
  rw [halve_result, Chk.halve_eq] at hr
  cases hr
  rw [halve_result, Chk.halve_eq] at hr'
  cases hr'
  have h1 := combOf_quarter hlt
  rw [decode_long_val, combOf_mod] at h1
  rw [combOf_unique hg h1]
  refine .before (precomputed_scalar_mul_positions (halve_spec _ (halve_spec _ hlt).1).1) fun _ => ?_
  refine .bind (eddsa_like_encode_quiet ..) fun _ => .bind (eddsa_like_encode_quiet ..) fun _ => .bind (.hash_with_dom ..) fun _ =>
    .bind (decode_long_quiet ..) fun _ => .bind (mul_quiet ..) fun _ => .bind (add_quiet ..) fun _ => .bind (.copyInto ..) fun _ =>
    .bind (encode_quiet ..) fun _ => .copyInto ..

theorem sign_by_private_reads {xof : Xof} {k : Arr Byte 57} {m : List Byte} {h g : ℕ}
    (hh : CombOf (RFC.secretScalar ((RFC.hash xof k.1 114).take 57)) h) (hg : CombOf (RFC.nonce xof ((RFC.hash xof k.1 114).drop 57) m) g) :
    Reads (combPositions h ++ combPositions g) (sign_by_private xof k.1 m) := by
  have hl := (Ed448.clamp (Ed448.sha3 xof k.1 114)).2
  have e1 : (Ed448.clamp (Ed448.sha3 xof k.1 114)).1.take 57 = clampList ((RFC.hash xof k.1 114).take 57) := clampList_take
  have e2 : (Ed448.clamp (Ed448.sha3 xof k.1 114)).1.drop 57 = (RFC.hash xof k.1 114).drop 57 := clampList_drop
  have h57 : ((RFC.hash xof k.1 114).take 57).length = 57 := by rw [hash_take, hash_length]
  have hd : ((RFC.hash xof k.1 114).drop 57).length = 57 := by rw [List.length_drop, hash_length]
  unfold sign_by_private
  refine .after (.sha3 ..) fun s hs => .after (clamp_quiet ..) fun c hc => .after (.slice ..) fun t ht => .after (.copyInto ..) fun sk hsk => ?_
  cases hs
  rw [clamp_result, Chk.clamp_eq _ (by norm_num)] at hc
  cases hc
  rw [result_slice, slice_ok (by norm_num) (by omega), List.drop_zero, Nat.sub_zero, e1] at ht
  cases ht
  rw [result_copyInto, copy57 (by rw [clampList_length, h57])] at hsk
  cases hsk
  refine .after (decode_long_quiet ..) fun sec _ => .after (.slice ..) fun t ht => .after (.copyInto ..) fun seed hseed => ?_
  rw [result_slice, slice_ok (by norm_num) (by omega), e2, List.take_of_length_le (by rw [hd])] at ht
  cases ht
  rw [result_copyInto, copy57 hd] at hseed
  cases hseed
  refine .bind (point_by_secret_reads (b := ⟨clampList ((RFC.hash xof k.1 114).take 57), by rw [clampList_length, h57]⟩) ?_) fun _ _ => signTail_reads hg
  rw [secretScalar_clamp h57]
  exact hh

theorem sign_with_secret_and_nonce_reads {xof : Xof} {s n : Arr Byte 57} {m : List Byte} {h g : ℕ} (hh : CombOf (RFC.secretScalar s.1) h)
    (hg : CombOf (RFC.nonce xof n.1 m) g) : Reads (combPositions h ++ combPositions g) (sign_with_secret_and_nonce xof s.1 n.1 m) := by
  unfold sign_with_secret_and_nonce
  exact .after (clamp_quiet ..) fun _ _ => .after (decode_long_quiet ..) fun _ _ => .bind (point_by_secret_reads hh) fun _ _ => signTail_reads hg

theorem kind_iff (k : Arr Byte 57) : (k.1[56]'(by rw [k.2]; norm_num)) &&& 0x80 = 0 ↔ signBit k.1 = 0 := by
  rw [← topBit_iff, topBitClear_eq]
  simp

theorem ed448_derive_public_reads {xof : Xof} {k : Arr Byte 57} {h : ℕ} (hh : CombOf (keyScalar xof k.1) h) :
    Reads (combPositions h) (ed448_derive_public xof k.1) := by
  unfold ed448_derive_public
  refine .after (.subU ..) fun n hn => .after (.idx ..) fun b hb => .after (.branch _) fun _ _ => ?_
  cases hn
  rw [result_idx, idx_eq _ _ (by rw [k.2]; norm_num)] at hb
  cases hb
  by_cases hk : signBit k.1 = 0
  · rw [keyScalar, if_pos hk] at hh
    rw [if_pos ((kind_iff k).2 hk)]
    exact private_to_public_reads hh
  · rw [keyScalar, if_neg hk] at hh
    rw [if_neg (fun e => hk ((kind_iff k).1 e))]
    exact secret_to_public_reads hh

theorem ed448_sign_reads {xof : Xof} {k : Arr Byte 57} {m : List Byte} {h g : ℕ} (hh : CombOf (keyScalar xof k.1) h)
    (hg : CombOf (RFC.nonce xof (keySeed xof k.1) m) g) : Reads (combPositions h ++ combPositions g) (ed448_sign xof k.1 m) := by
  unfold ed448_sign
  refine .after (.subU ..) fun n hn => .after (.idx ..) fun b hb => .after (.branch _) fun _ _ => ?_
  cases hn
  rw [result_idx, idx_eq _ _ (by rw [k.2]; norm_num)] at hb
  cases hb
  by_cases hk : signBit k.1 = 0
  · rw [keyScalar, if_pos hk] at hh
    rw [keySeed, if_pos hk] at hg
    rw [if_pos ((kind_iff k).2 hk)]
    exact sign_by_private_reads hh hg
  · rw [keyScalar, if_neg hk] at hh
    rw [keySeed, if_neg hk] at hg
    rw [if_neg (fun e => hk ((kind_iff k).1 e))]
    refine .after (clamp_quiet ..) fun d hd => ?_
    rw [clamp_result, Chk.clamp_eq _ (by norm_num)] at hd
    cases hd
    refine sign_with_secret_and_nonce_reads ?_ ?_
    · rw [show (Ed448.clamp k).1 = clampList k.1 from rfl, secretScalar_clamp k.2]
      exact hh
    · rw [show (Ed448.clamp k).1 = clampList k.1 from rfl, clamped_bytes k.2]
      exact hg

theorem combOf_exists (n : ℕ) : ∃ h, CombOf n h := by
  have := combOf_quarter (s := Ed448.decode_long (leBytes 57 (n % q))) (by rw [decode_long_val]; exact Nat.mod_lt _ q_pos)
  rw [decode_long_val, combOf_mod, leNat_leBytes, Nat.mod_eq_of_lt, combOf_mod] at this
  · exact ⟨_, this⟩
  · exact lt_trans (Nat.mod_lt _ q_pos) (lt_trans q_lt (by norm_num))

/-! ## What the positions tell -/

theorem combPositions_map (h : ℕ) : combPositions h = (List.range 90).map fun t => combPosition h (17 - t / 5) (t % 5) := rfl

theorem four_bits (a b c d a' b' c' d' : Prop) [Decidable a] [Decidable b] [Decidable c] [Decidable d] [Decidable a'] [Decidable b'] [Decidable c']
    [Decidable d'] (h : (if a then 2 ^ 0 else 0) + (if b then 2 ^ 1 else 0) + (if c then 2 ^ 2 else 0) + (if d then 2 ^ 3 else 0) =
      (if a' then 2 ^ 0 else 0) + (if b' then 2 ^ 1 else 0) + (if c' then 2 ^ 2 else 0) + (if d' then 2 ^ 3 else 0)) :
    (a ↔ a') ∧ (b ↔ b') ∧ (c ↔ c') ∧ (d ↔ d') := by
  have le : ∀ (x : Prop) [Decidable x] (n : ℕ), (if x then n else 0) = n * (if x then 1 else 0) := fun x _ n => by split_ifs <;> simp
  have l1 : ∀ (x : Prop) [Decidable x], (if x then 1 else 0) ≤ 1 := fun x _ => by split_ifs <;> simp
  have hi : ∀ (x y : Prop) [Decidable x] [Decidable y], (if x then 1 else 0) = (if y then 1 else 0) → (x ↔ y) := fun x y _ _ e => by
    clear le l1 h
    by_cases hx : x <;> by_cases hy : y <;> simp_all
  rw [le a, le b, le c, le d, le a', le b', le c', le d'] at h
  have := l1 a
  have := l1 b
  have := l1 c
  have := l1 d
  have := l1 a'
  have := l1 b'
  have := l1 c'
  have := l1 d'
  exact ⟨hi _ _ (by omega), hi _ _ (by omega), hi _ _ (by omega), hi _ _ (by omega)⟩

theorem combPosition_inj {h h' i j : ℕ} (e : combPosition h i j = combPosition h' i j) (k : ℕ) (hk : k < 4) :
    (h.testBit (i + 90 * j + 18 * k) = h.testBit (i + 90 * j + 72)) ↔ (h'.testBit (i + 90 * j + 18 * k) = h'.testBit (i + 90 * j + 72)) := by
  simp only [combPosition, Nat.add_left_cancel_iff] at e
  generalize h.testBit (i + 90 * j + 72) = t at *
  generalize h'.testBit (i + 90 * j + 72) = t' at *
  rw [Finset.sum_range_succ, Finset.sum_range_succ, Finset.sum_range_succ, Finset.sum_range_one, Finset.sum_range_succ, Finset.sum_range_succ,
    Finset.sum_range_succ, Finset.sum_range_one] at e
  have := four_bits _ _ _ _ _ _ _ _ e
  rcases (by omega : k = 0 ∨ k = 1 ∨ k = 2 ∨ k = 3) with rfl | rfl | rfl | rfl
  · exact this.1
  · exact this.2.1
  · exact this.2.2.1
  · exact this.2.2.2

theorem combPositions_get {h h' : ℕ} (e : combPositions h = combPositions h') {i j : ℕ} (hi : i < 18) (hj : j < 5) :
    combPosition h i j = combPosition h' i j := by
  rw [combPositions_map, combPositions_map, List.map_inj_left] at e
  have := e ((17 - i) * 5 + j) (List.mem_range.2 (by omega))
  rwa [show 17 - ((17 - i) * 5 + j) / 5 = i by omega, show ((17 - i) * 5 + j) % 5 = j by omega] at this

/-- The positions and the last bits of the columns determine the number. -/
theorem comb_determined {h h' : ℕ} (hh : h < q) (hh' : h' < q) (e : combPositions h = combPositions h')
    (ht : ∀ t < 86, h.testBit (t % 18 + 90 * (t / 18) + 72) = h'.testBit (t % 18 + 90 * (t / 18) + 72)) : h = h' := by
  have hz : ∀ {n : ℕ}, n < q → ∀ b, 446 ≤ b → n.testBit b = false := fun {n} hn b hb =>
    Nat.testBit_lt_two_pow (lt_of_lt_of_le (lt_trans hn q_lt) (Nat.pow_le_pow_right (by norm_num) hb))
  have htop : ∀ i < 18, ∀ j < 5, h.testBit (i + 90 * j + 72) = h'.testBit (i + 90 * j + 72) := fun i hi j hj => by
    by_cases hb : i + 18 * j < 86
    · have := ht (i + 18 * j) hb
      rwa [show (i + 18 * j) % 18 = i by omega, show (i + 18 * j) / 18 = j by omega] at this
    · rw [hz hh _ (by omega), hz hh' _ (by omega)]
  refine Nat.eq_of_testBit_eq fun b => ?_
  by_cases hb : 446 ≤ b
  · rw [hz hh _ hb, hz hh' _ hb]
  · have hd : b = b % 18 + 90 * (b / 90) + 18 * (b % 90 / 18) := by omega
    by_cases hk : b % 90 / 18 = 4
    · have := htop (b % 18) (by omega) (b / 90) (by omega)
      rwa [show b % 18 + 90 * (b / 90) + 72 = b by omega] at this
    · have h1 := htop (b % 18) (by omega) (b / 90) (by omega)
      have h2 := combPosition_inj (combPositions_get e (i := b % 18) (j := b / 90) (by omega) (by omega)) (b % 90 / 18) (by omega)
      rw [← hd, ← h1] at h2
      revert h2
      cases h.testBit b <;> cases h'.testBit b <;> cases h.testBit (b % 18 + 90 * (b / 90) + 72) <;> simp

/-- At most `2^86` numbers have the same positions. -/
theorem positions_card (l : List ℕ) : ((Finset.range q).filter fun h => combPositions h = l).card ≤ 2 ^ 86 := by
  have hc : (Finset.univ : Finset (Fin 86 → Bool)).card = 2 ^ 86 := by
    rw [Finset.card_univ, Fintype.card_fun, Fintype.card_bool, Fintype.card_fin]
  refine le_of_le_of_eq ?_ hc
  let f : ℕ → Fin 86 → Bool := fun h t => h.testBit (t.1 % 18 + 90 * (t.1 / 18) + 72)
  refine Finset.card_le_card_of_injOn f (by rw [Finset.coe_univ]; exact Set.mapsTo_univ _ _) ?_
  intro h hh h' hh' e
  rw [Finset.mem_coe, Finset.mem_filter, Finset.mem_range] at hh hh'
  have e : ∀ t : Fin 86, h.testBit (t.1 % 18 + 90 * (t.1 / 18) + 72) = h'.testBit (t.1 % 18 + 90 * (t.1 / 18) + 72) := congrFun e
  exact comb_determined hh.1 hh'.1 (hh.2.trans hh'.2.symm) fun t ht => e ⟨t, ht⟩

end Leak

end Ed448
