import Mathlib.Data.Int.CardIntervalMod
import Mathlib.Data.Set.Card
import Verif.Spec.Count
import Verif.Properties.Binding
import Verif.Properties.Exceptions

/-!
# Counting: C67 (nonces and secrets), C68 (keys)
-/

set_option exponentiation.threshold 1000

namespace Ed448

/-! ## Byte strings as numbers -/

theorem leNat_ofFn_lt {n : ℕ} (h : Fin n → Byte) : leNat (List.ofFn h) < 256 ^ n := by
  have := leNat_lt (List.ofFn h)
  rwa [List.length_ofFn] at this

theorem ncard_strings (n : ℕ) (P : ℕ → Prop) :
    Set.ncard {h : Fin n → Byte | P (leNat (List.ofFn h))} = Set.ncard {v : ℕ | v < 256 ^ n ∧ P v} := by
  have hi : Set.InjOn (fun h : Fin n → Byte => leNat (List.ofFn h)) {h : Fin n → Byte | P (leNat (List.ofFn h))} := by
    intro a _ b _ h
    exact List.ofFn_injective (leNat_inj (by simp) h)
  rw [← Set.InjOn.ncard_image hi]
  congr 1
  ext v
  simp only [Set.mem_image, Set.mem_ofPred_eq]
  constructor
  · rintro ⟨h, hP, rfl⟩
    exact ⟨leNat_ofFn_lt h, hP⟩
  · rintro ⟨hv, hP⟩
    have e : leNat (List.ofFn fun i : Fin n => (leBytes n v)[i.1]'(by simp)) = v := by
      have : (List.ofFn fun i : Fin n => (leBytes n v)[i.1]'(by simp)) = leBytes n v := by
        apply List.ext_getElem
        · simp
        · intro i h1 h2
          simp
      rw [this, leNat_leBytes, Nat.mod_eq_of_lt hv]
    exact ⟨_, by rw [e]; exact hP, e⟩

theorem ncard_arrays (n : ℕ) (P : ℕ → Prop) :
    Set.ncard {k : Arr Byte n | P (leNat k.1)} = Set.ncard {v : ℕ | v < 256 ^ n ∧ P v} := by
  have hi : Set.InjOn (fun k : Arr Byte n => leNat k.1) {k : Arr Byte n | P (leNat k.1)} := by
    intro a _ b _ h
    exact Subtype.ext (leNat_inj (a.2.trans b.2.symm) h)
  rw [← Set.InjOn.ncard_image hi]
  congr 1
  ext v
  simp only [Set.mem_image, Set.mem_ofPred_eq]
  constructor
  · rintro ⟨h, hP, rfl⟩
    have := leNat_lt h.1
    rw [h.2] at this
    exact ⟨this, hP⟩
  · rintro ⟨hv, hP⟩
    have e : leNat (leBytes n v) = v := by rw [leNat_leBytes, Nat.mod_eq_of_lt hv]
    exact ⟨⟨leBytes n v, leBytes_length n v⟩, by rw [e]; exact hP, e⟩

theorem ncard_residue (b r v : ℕ) (hr : 0 < r) (hv : v < r) :
    Set.ncard {x : ℕ | x < b ∧ x % r = v} = b / r ∨ Set.ncard {x : ℕ | x < b ∧ x % r = v} = b / r + 1 := by
  have e : {x : ℕ | x < b ∧ x % r = v} = ((Finset.range b).filter (· ≡ v [MOD r]) : Finset ℕ) := by
    ext x
    simp only [Set.mem_ofPred_eq, Finset.coe_filter, Finset.mem_range, Nat.ModEq, Nat.mod_eq_of_lt hv]
  rw [e, Set.ncard_coe_finset, ← Nat.count_eq_card_filter_range, Nat.count_modEq_card _ hr]
  split <;> simp

theorem ncard_clamped (lo n j : ℕ) (hj : j < 2 ^ 445) :
    Set.ncard {v : ℕ | 2 ^ 447 * lo ≤ v ∧ v < 2 ^ 447 * (lo + n) ∧ v % 2 ^ 447 / 4 = j} = 4 * n := by
  have h447 : (2 : ℕ) ^ 447 = 4 * 2 ^ 445 := by rw [show 447 = 2 + 445 from rfl, pow_add]; norm_num
  have e : {v : ℕ | 2 ^ 447 * lo ≤ v ∧ v < 2 ^ 447 * (lo + n) ∧ v % 2 ^ 447 / 4 = j} =
      ((Finset.range 4 ×ˢ Finset.range n).image fun x => 2 ^ 447 * (lo + x.2) + (4 * j + x.1) : Finset ℕ) := by
    ext v
    simp only [Set.mem_ofPred_eq, Finset.coe_image, Set.mem_image, Finset.mem_coe, Finset.mem_product, Finset.mem_range, Prod.exists]
    rw [h447]
    generalize (2 : ℕ) ^ 445 = M at *
    have hM : 0 < 4 * M := by omega
    constructor
    · rintro ⟨h1, h2, h3⟩
      have hd := Nat.div_add_mod v (4 * M)
      have l1 : lo ≤ v / (4 * M) := (Nat.le_div_iff_mul_le hM).mpr (by rw [mul_comm]; exact h1)
      have l2 : v / (4 * M) < lo + n := (Nat.div_lt_iff_lt_mul hM).mpr (by rw [mul_comm]; exact h2)
      refine ⟨v % (4 * M) % 4, v / (4 * M) - lo, ⟨Nat.mod_lt _ (by norm_num), by omega⟩, ?_⟩
      rw [show lo + (v / (4 * M) - lo) = v / (4 * M) by omega, ← h3, Nat.div_add_mod, hd]
    · rintro ⟨a, b, ⟨ha, hb⟩, rfl⟩
      have hlt : 4 * j + a < 4 * M := by omega
      refine ⟨?_, ?_, ?_⟩
      · exact le_trans (Nat.mul_le_mul_left _ (by omega)) (Nat.le_add_right _ _)
      · calc 4 * M * (lo + b) + (4 * j + a) < 4 * M * (lo + b) + 4 * M := by omega
          _ = 4 * M * (lo + b + 1) := by ring
          _ ≤ 4 * M * (lo + n) := Nat.mul_le_mul_left _ (by omega)
      · rw [Nat.mul_add_mod, Nat.mod_eq_of_lt hlt]
        omega
  rw [e, Set.ncard_coe_finset, Finset.card_image_of_injOn, Finset.card_product, Finset.card_range, Finset.card_range]
  rintro ⟨a, b⟩ hx ⟨a', b'⟩ hy h
  simp only [Finset.coe_product, Set.mem_prod, Finset.mem_coe, Finset.mem_range] at hx hy
  simp only at h
  rw [h447] at h
  generalize (2 : ℕ) ^ 445 = M at *
  have hM : 0 < 4 * M := by omega
  have h1 := congrArg (· % (4 * M)) h
  have h2 := congrArg (· / (4 * M)) h
  simp only [Nat.mul_add_mod] at h1
  rw [Nat.mod_eq_of_lt (by omega), Nat.mod_eq_of_lt (by omega)] at h1
  simp only [Nat.mul_add_div hM] at h2
  rw [Nat.div_eq_of_lt (by omega), Nat.div_eq_of_lt (by omega)] at h2
  simp only [Prod.mk.injEq]
  omega

/-! ## The changed hash function -/

theorem hash_reprogram (xof : Xof) (s : List Byte) (h : Fin 114 → Byte) : RFC.hash (reprogram xof s h) s 114 = List.ofFn h := by
  apply List.ext_getElem
  · rw [RFC.hash, List.length_map, List.length_range, List.length_ofFn]
  · intro i h1 h2
    have hi : i < 114 := by rwa [List.length_ofFn] at h2
    simp only [RFC.hash, List.getElem_map, List.getElem_range, List.getElem_ofFn, reprogram, if_true, hi, dif_pos]

theorem hash_reprogram_ne (xof : Xof) {s t : List Byte} (hne : t ≠ s) (h : Fin 114 → Byte) (n : ℕ) :
    RFC.hash (reprogram xof s h) t n = RFC.hash xof t n := by
  simp [RFC.hash, reprogram, hne]

theorem dom4_length : RFC.dom4.length = 10 := by decide +kernel

/-- C67. For every key and message and every r below the group order: of the 2^912 outputs that the hash function can have where the nonce is
derived, 2^912 / q (rounded down) or one more lead to the nonce point rB. As 2^912 / q > 2^465, no nonce is preferred by more than a factor of
1 + 2^-465. -/
theorem C67_nonces (xof : Xof) (k : Arr Byte 57) (m : List Byte) (r : ℕ) (hr : r < q) :
    let N := Set.ncard {h : Fin 114 → Byte | ∃ sig, ed448_sign (reprogram xof (RFC.dom4 ++ keySeed xof k.1 ++ m) h) k m = .ok sig ∧
      sig.1.take 57 = encodePoint (r • B)}
    (N = 2 ^ 912 / q ∨ N = 2 ^ 912 / q + 1) ∧ 2 ^ 465 < 2 ^ 912 / q := by
  have e : {h : Fin 114 → Byte | ∃ sig, ed448_sign (reprogram xof (RFC.dom4 ++ keySeed xof k.1 ++ m) h) k m = .ok sig ∧
      sig.1.take 57 = encodePoint (r • B)} = {h : Fin 114 → Byte | leNat (List.ofFn h) % q = r} := by
    ext h
    simp only [Set.mem_ofPred_eq]
    generalize hs : RFC.dom4 ++ keySeed xof k.1 ++ m = s
    have hlen : s.length = 10 + (keySeed xof k.1).length + m.length := by rw [← hs, List.length_append, List.length_append, dom4_length]
    have hseed : (keySeed xof k.1).length = 57 := by
      rw [keySeed]
      split <;> simp [RFC.hash]
    have hk : k.1 ≠ s := by
      intro h0
      have := congrArg List.length h0
      have hk := k.2
      omega
    have hks : keySeed (reprogram xof s h) k.1 = keySeed xof k.1 := by rw [keySeed, keySeed, hash_reprogram_ne _ hk]
    obtain ⟨sig, s1, s2⟩ := sign_spec (reprogram xof s h) k m
    have hn : sig.1.take 57 = encodePoint (leNat (List.ofFn h) • B) := by
      rw [s2, (sign_eq_parts _ _ _ _).1, RFC.nonce, hks, hs, hash_reprogram]
    constructor
    · rintro ⟨sig', s3, s4⟩
      obtain rfl := Except.ok.inj (s1.symm.trans s3)
      have := smul_B_inj.mp (encodePoint_inj.mp (hn.symm.trans s4))
      rwa [Nat.mod_eq_of_lt hr] at this
    · intro h0
      refine ⟨sig, s1, ?_⟩
      rw [hn, ← smul_B_mod, h0]
  have hN : Set.ncard {h : Fin 114 → Byte | leNat (List.ofFn h) % q = r} = Set.ncard {v : ℕ | v < 2 ^ 912 ∧ v % q = r} := by
    have := ncard_strings 114 (fun v => v % q = r)
    rwa [show 256 ^ 114 = 2 ^ 912 by norm_num] at this
  simp only [e, hN]
  exact ⟨ncard_residue _ _ _ q_pos hr, by rw [← qN_eq]; decide +kernel⟩

theorem publicOf_inj {l l' : List Byte} : RFC.publicOf (RFC.secretScalar l) = RFC.publicOf (RFC.secretScalar l') ↔ RFC.secretScalar l = RFC.secretScalar l' := by
  refine ⟨fun h => ?_, fun h => by rw [h]⟩
  rw [RFC.publicOf, RFC.publicOf, encodePoint_inj, smul_B_inj] at h
  exact secretScalar_inj h

theorem scalar_eq_iff {l : List Byte} {j : ℕ} : RFC.secretScalar l = 4 * j + 2 ^ 447 ↔ leNat l % 2 ^ 447 / 4 = j := by
  rw [RFC.secretScalar]
  generalize leNat l % 2 ^ 447 = a
  generalize (2 : ℕ) ^ 447 = M
  omega

theorem scalar_surj {j : ℕ} (hj : j < 2 ^ 445) : ∃ l : List Byte, RFC.secretScalar l = 4 * j + 2 ^ 447 := by
  refine ⟨leBytes 57 (4 * j), ?_⟩
  have h447 : (2 : ℕ) ^ 447 = 4 * 2 ^ 445 := by rw [show 447 = 2 + 445 from rfl, pow_add]; norm_num
  have h456 : (256 : ℕ) ^ 57 = 2048 * 2 ^ 445 := by norm_num
  rw [scalar_eq_iff, leNat_leBytes, h447, h456]
  generalize (2 : ℕ) ^ 445 = M at *
  rw [Nat.mod_eq_of_lt (a := 4 * j) (b := 2048 * M) (by omega), Nat.mod_eq_of_lt (by omega)]
  omega

/-- C67. For every ordinary private key and every possible secret scalar `4j + 2^447`: exactly 2^467 of the 2^912 outputs that the hash
function can have on the key lead to the public key of this scalar. So all 2^445 public keys are equally likely. -/
theorem C67_secrets (xof : Xof) (k : Arr Byte 57) (hk : signBit k.1 = 0) (j : ℕ) (hj : j < 2 ^ 445) :
    Set.ncard {h : Fin 114 → Byte | ∃ A, ed448_derive_public (reprogram xof k.1 h) k = .ok A ∧ A.1 = RFC.publicOf (4 * j + 2 ^ 447)} = 2 ^ 467 := by
  have e : {h : Fin 114 → Byte | ∃ A, ed448_derive_public (reprogram xof k.1 h) k = .ok A ∧ A.1 = RFC.publicOf (4 * j + 2 ^ 447)} =
      {h : Fin 114 → Byte | leNat (List.ofFn h) % 2 ^ 447 / 4 = j} := by
    ext h
    simp only [Set.mem_ofPred_eq]
    obtain ⟨A, a1, a2⟩ := C01_derive_rfc (reprogram xof k.1 h) k hk
    rw [RFC.publicKey, hash_reprogram] at a2
    have hm : leNat (List.ofFn h) % 2 ^ 447 = leNat ((List.ofFn h).take 57) % 2 ^ 447 := by
      conv_lhs => rw [← List.take_append_drop 57 (List.ofFn h), leNat_append]
      rw [List.length_take, List.length_ofFn, show 256 ^ min 57 114 = 2 ^ 447 * 2 ^ 9 by norm_num, mul_assoc, Nat.add_mul_mod_self_left]
    rw [hm, ← scalar_eq_iff]
    obtain ⟨l, hl⟩ := scalar_surj hj
    rw [← hl]
    constructor
    · rintro ⟨A', a3, a4⟩
      obtain rfl := Except.ok.inj (a1.symm.trans a3)
      exact publicOf_inj.mp (a2.symm.trans a4)
    · exact fun h0 => ⟨A, a1, by rw [a2, h0]⟩
  have h1 := ncard_strings 114 (fun v => v % 2 ^ 447 / 4 = j)
  have h2 := ncard_clamped 0 (2 ^ 465) j hj
  rw [e, h1, show 256 ^ 114 = 2 ^ 447 * (0 + 2 ^ 465) by norm_num]
  simp only [mul_zero, Nat.zero_le, true_and] at h2
  rw [h2]
  norm_num

/-- C67. Every possible secret scalar is the scalar of exactly 2^10 of the 2^455 direct-secret keys. -/
theorem C67_direct (xof : Xof) (j : ℕ) (hj : j < 2 ^ 445) :
    Set.ncard {k : Arr Byte 57 | signBit k.1 = 1 ∧ ∃ A, ed448_derive_public xof k = .ok A ∧ A.1 = RFC.publicOf (4 * j + 2 ^ 447)} = 2 ^ 10 ∧
    Set.ncard {k : Arr Byte 57 | signBit k.1 = 1} = 2 ^ 455 := by
  have hsign : ∀ k : Arr Byte 57, signBit k.1 = 1 ↔ 2 ^ 455 ≤ leNat k.1 := by
    intro k
    have hk := k.2
    have hb : k.1 = k.1.take 56 ++ [k.1.getD 56 0] := by
      conv_lhs => rw [← List.take_append_drop 56 k.1]
      congr 1
      apply List.ext_getElem
      · simp [hk]
      · intro i h1 h2
        have : i = 0 := by simp at h2; omega
        subst this
        simp [List.getD, hk]
    have hv : leNat k.1 = leNat (k.1.take 56) + 2 ^ 448 * (k.1.getD 56 0).toNat := by
      conv_lhs => rw [hb]
      rw [leNat_append, List.length_take, hk, leNat, leNat, mul_zero, add_zero, show 256 ^ min 56 57 = 2 ^ 448 by norm_num]
    have hlt := yNat_lt hk
    rw [yNat] at hlt
    have h8 := (k.1.getD 56 0).isLt
    rw [signBit, hv, show (2 : ℕ) ^ 455 = 2 ^ 448 * 128 by norm_num]
    generalize (k.1.getD 56 0).toNat = a at *
    generalize leNat (k.1.take 56) = b at *
    generalize (2 : ℕ) ^ 448 = M at *
    constructor
    · intro h
      have : M * 128 ≤ M * a := Nat.mul_le_mul_left _ (by omega)
      omega
    · intro h
      by_contra hc
      have : M * a ≤ M * 127 := Nat.mul_le_mul_left _ (by omega)
      omega
  constructor
  · have e : {k : Arr Byte 57 | signBit k.1 = 1 ∧ ∃ A, ed448_derive_public xof k = .ok A ∧ A.1 = RFC.publicOf (4 * j + 2 ^ 447)} =
        {k : Arr Byte 57 | 2 ^ 455 ≤ leNat k.1 ∧ leNat k.1 % 2 ^ 447 / 4 = j} := by
      ext k
      simp only [Set.mem_ofPred_eq]
      rw [← hsign]
      refine and_congr_right fun hs => ?_
      obtain ⟨A, a1, a2⟩ := C03_derive_direct xof k hs
      rw [← scalar_eq_iff]
      obtain ⟨l, hl⟩ := scalar_surj hj
      rw [← hl]
      constructor
      · rintro ⟨A', a3, a4⟩
        obtain rfl := Except.ok.inj (a1.symm.trans a3)
        exact publicOf_inj.mp (a2.symm.trans a4)
      · exact fun h0 => ⟨A, a1, by rw [a2, h0, RFC.publicOf]⟩
    have h1 := ncard_arrays 57 (fun v => 2 ^ 455 ≤ v ∧ v % 2 ^ 447 / 4 = j)
    have h2 := ncard_clamped (2 ^ 8) (2 ^ 8) j hj
    rw [e, h1, show 256 ^ 57 = 2 ^ 447 * (2 ^ 8 + 2 ^ 8) by norm_num, show (2 : ℕ) ^ 455 = 2 ^ 447 * 2 ^ 8 by norm_num]
    have e2 : {v : ℕ | v < 2 ^ 447 * (2 ^ 8 + 2 ^ 8) ∧ 2 ^ 447 * 2 ^ 8 ≤ v ∧ v % 2 ^ 447 / 4 = j} =
        {v : ℕ | 2 ^ 447 * 2 ^ 8 ≤ v ∧ v < 2 ^ 447 * (2 ^ 8 + 2 ^ 8) ∧ v % 2 ^ 447 / 4 = j} := by
      ext v
      exact and_left_comm
    rw [e2, h2]
    norm_num
  · have e : {k : Arr Byte 57 | signBit k.1 = 1} = {k : Arr Byte 57 | 2 ^ 455 ≤ leNat k.1} := by
      ext k
      exact hsign k
    have h1 := ncard_arrays 57 (fun v => 2 ^ 455 ≤ v)
    have e2 : {v : ℕ | v < 256 ^ 57 ∧ 2 ^ 455 ≤ v} = (Finset.Ico (2 ^ 455) (256 ^ 57) : Finset ℕ) := by
      ext v
      rw [Finset.coe_Ico]
      exact and_comm
    rw [e, h1, e2, Set.ncard_coe_finset, Nat.card_Ico]
    norm_num

/-- The hypotheses are met by the private key of the first test vector of RFC 8032, and by the scalar 2^447. -/
example : signBit Witness.rfcKey.1 = 0 ∧ (0 : ℕ) < 2 ^ 445 ∧ (1 : ℕ) < q := ⟨Witness.rfcKey_sign, by norm_num, by rw [← qN_eq]; decide +kernel⟩

/-! ## The group and the keys -/

/-- The four points of order dividing 4. -/
theorem four_zero_iff (A : E) : 4 • A = 0 ↔ A = 0 ∨ A = T2 ∨ A = T4 ∨ A = -T4 := by
  constructor
  · intro h
    have hon := A.on
    rcases (Edw.phiX_eq_zero_iff A).mp ((Edw.four_eq_zero_iff A).mp h) with hx | hy
    · rw [hx] at hon
      have h8 : (A.y - 1) * (A.y + 1) = 0 := by linear_combination hon
      rcases mul_eq_zero.mp h8 with h9 | h9
      · left; ext
        · exact hx
        · rw [Edw.zero_y]; linear_combination h9
      · right; left; ext
        · exact hx
        · show A.y = -1; linear_combination h9
    · rw [hy] at hon
      have h8 : (A.x - 1) * (A.x + 1) = 0 := by linear_combination hon
      rcases mul_eq_zero.mp h8 with h9 | h9
      · right; right; left; ext
        · show A.x = 1; linear_combination h9
        · exact hy
      · right; right; right; ext
        · rw [Edw.neg_x]; show A.x = -1; linear_combination h9
        · rw [Edw.neg_y]; exact hy
  · rintro (rfl | rfl | rfl | rfl)
    · exact smul_zero 4
    · rw [Edw.four_eq, T2_double, add_zero]
    · exact four_T4
    · rw [smul_neg, four_T4, neg_zero]

theorem one_ne_neg_one : (1 : F) ≠ -1 := fun h => F_two_ne_zero (by linear_combination h)

/-- The points with a given multiple by 4 differ by the four points of small order. -/
theorem ncard_fibre (C : E) : Set.ncard {A : E | 4 • A = 4 • C} = 4 := by
  classical
  have e : {A : E | 4 • A = 4 • C} = (({0, T2, T4, -T4} : Finset E).image (fun T => C + T) : Finset E) := by
    ext A
    simp only [Set.mem_ofPred_eq, Finset.coe_image, Set.mem_image, Finset.mem_coe, Finset.mem_insert, Finset.mem_singleton]
    constructor
    · intro h
      refine ⟨A - C, (four_zero_iff _).mp ?_, by abel⟩
      rw [smul_sub, h, sub_self]
    · rintro ⟨T, hT, rfl⟩
      rw [smul_add, (four_zero_iff T).mpr hT, add_zero]
  rw [e, Set.ncard_coe_finset, Finset.card_image_of_injective _ (add_right_injective C)]
  have hy : ∀ {A C : E}, A.y ≠ C.y → A ≠ C := fun h h0 => h (by rw [h0])
  have hx : ∀ {A C : E}, A.x ≠ C.x → A ≠ C := fun h h0 => h (by rw [h0])
  have n1 : (0 : E) ≠ T2 := T2_ne_zero.symm
  have n2 : (0 : E) ≠ T4 := hy (by rw [Edw.zero_y]; exact one_ne_zero)
  have n3 : (0 : E) ≠ -T4 := hy (by rw [Edw.zero_y, Edw.neg_y]; exact one_ne_zero)
  have n4 : T2 ≠ T4 := hx (show (0 : F) ≠ 1 from zero_ne_one)
  have n5 : T2 ≠ -T4 := hx (by rw [Edw.neg_x]; show (0 : F) ≠ -1; exact (neg_ne_zero.mpr one_ne_zero).symm)
  have n6 : T4 ≠ -T4 := hx (by rw [Edw.neg_x]; exact one_ne_neg_one)
  rw [Finset.card_insert_of_notMem, Finset.card_insert_of_notMem, Finset.card_insert_of_notMem, Finset.card_singleton]
  · simp only [Finset.mem_singleton]; exact n6
  · simp only [Finset.mem_insert, Finset.mem_singleton]; tauto
  · simp only [Finset.mem_insert, Finset.mem_singleton]; tauto

/-- C68. The curve has exactly 4q points, q the order of the base point. -/
theorem C68_card : Nat.card E = 4 * q := by
  have h := ncard_fibre 0
  rw [smul_zero] at h
  have h1 : Nat.card mul4.ker = 4 := by
    rw [← h, ← Nat.card_coe_set_eq]
    rfl
  rw [← card_mul, card_range, h1]

/-- C68. Every point A is a public key: there is exactly one s below the group order for which `sB` is A without its small-order component, and
every accepted string for A is the same key to the verifier as the encoding of `sB`, if that is accepted: same results for
all signatures and messages. Each s belongs to exactly four points. -/
theorem C68_scalar (A : E) : ∃ s < q, 4 • A = 4 • (s • B) ∧ (∀ s' < q, 4 • A = 4 • (s' • B) → s' = s) ∧
    Set.ncard {A' : E | 4 • A' = 4 • (s • B)} = 4 ∧
    ∀ (xof : Xof) (pk sig m : List Byte), Accepted pk → Decodes pk A → pk ≠ List.replicate 57 0 → Accepted (RFC.publicOf s) →
      ed448_verify xof pk sig m = ed448_verify xof (RFC.publicOf s) sig m := by
  obtain ⟨n, hn, h4⟩ := four_mem_B A
  have hq := q_mod_four
  have hs : 4 • ((((q + 1) / 4 * n) % q) • B) = 4 • A := by
    rw [smul_B_mod, smul_smul, ← mul_assoc, mul_comm 4, Nat.div_mul_cancel (by omega), mul_smul, cleared_smul_B, h4]
  refine ⟨_, Nat.mod_lt _ q_pos, hs.symm, fun s' hs' h => ?_, ncard_fibre _, fun xof pk sig m hp hd hz ha => ?_⟩
  · rw [← hs] at h
    have h1 := congrArg (((q + 1) / 4) • ·) h
    simp only [smul_smul] at h1
    rw [← mul_assoc, ← mul_assoc, Nat.div_mul_cancel (by omega), mul_smul, mul_smul, cleared_smul_B, cleared_smul_B, smul_B_inj, Nat.mod_mod,
      Nat.mod_eq_of_lt hs'] at h1
    exact h1.symm
  · generalize hs0 : (q + 1) / 4 * n % q = s at *
    refine (C43_torsion xof pk (RFC.publicOf s) sig m (s • B) (A - s • B) ?_ hp ?_ ha (decodes_encode _) hz (encode_smul_B_ne_zero _)).1
    · rw [smul_sub, hs, sub_self]
    · rwa [add_sub_cancel]

/-- C68. Of the 4q canonical encodings of points, all but at most 129 * 2^407 + 2^32 are accepted as public keys. -/
theorem C68_accepted : 4 * q - (129 * 2 ^ 407 + 2 ^ 32) ≤ Set.ncard {pk : List Byte | (∃ A : E, RFC.DecodesTo pk A) ∧ Accepted pk} ∧
    Set.ncard {pk : List Byte | ∃ A : E, RFC.DecodesTo pk A} = 4 * q := by
  classical
  have e : {pk : List Byte | ∃ A : E, RFC.DecodesTo pk A} = encodePoint '' Set.univ := by
    ext pk
    simp only [Set.mem_ofPred_eq, Set.image_univ, Set.mem_range]
    exact exists_congr fun A => by rw [decodesTo_iff, eq_comm]
  have hc : Set.ncard {pk : List Byte | ∃ A : E, RFC.DecodesTo pk A} = 4 * q := by
    rw [e, Set.InjOn.ncard_image (fun a _ b _ h => encodePoint_inj.mp h), Set.ncard_univ, C68_card]
  refine ⟨?_, hc⟩
  obtain ⟨T, t1, t2⟩ := few_rejected
  have hsub : {pk : List Byte | ∃ A : E, RFC.DecodesTo pk A} \ (T.image encodePoint : Finset (List Byte)) ⊆
      {pk : List Byte | (∃ A : E, RFC.DecodesTo pk A) ∧ Accepted pk} := by
    rintro pk ⟨⟨A, hA⟩, hT⟩
    refine ⟨⟨A, hA⟩, ?_⟩
    by_contra h
    rw [decodesTo_iff.mp hA] at h
    exact hT (by rw [decodesTo_iff.mp hA]; exact Finset.mem_coe.mpr (Finset.mem_image_of_mem _ (t2 A h)))
  have hfin : Set.Finite {pk : List Byte | ∃ A : E, RFC.DecodesTo pk A} := by rw [e]; exact Set.finite_univ.image _
  have h1 := Set.ncard_le_ncard hsub (hfin.subset fun pk h => h.1)
  have h2 := Set.le_ncard_sdiff ((T.image encodePoint : Finset (List Byte)) : Set (List Byte)) {pk : List Byte | ∃ A : E, RFC.DecodesTo pk A}
  have h3 : Set.ncard ((T.image encodePoint : Finset (List Byte)) : Set (List Byte)) ≤ 129 * 2 ^ 407 + 2 ^ 32 := by
    rw [Set.ncard_coe_finset]
    exact le_trans Finset.card_image_le t1
  rw [hc] at h2
  generalize 129 * 2 ^ 407 + 2 ^ 32 = K at *
  omega

/-- The point of order four plus the base point is the same key as the base point, if its encoding is accepted. -/
example : 4 • (B + T4) = 4 • (1 • B) := by rw [smul_add, four_T4, add_zero, one_smul]

end Ed448
