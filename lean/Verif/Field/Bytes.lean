import Verif.Field.Select
import Verif.Field.BytesLemmas

/-!
# Serialization of field elements
-/

namespace Ed448

theorem or_shl_toNat {b : W64} {x fill : ℕ} (hb : b.toNat < 2 ^ fill) (hx : x < 2 ^ 28)
    (hf : fill + 28 ≤ 64) :
    (b ||| (BitVec.ofNat 64 x <<< fill)).toNat = b.toNat + 2 ^ fill * x := by
  have h1 : 2 ^ fill * x < 2 ^ 64 := by
    calc 2 ^ fill * x < 2 ^ fill * 2 ^ 28 := by
          exact Nat.mul_lt_mul_of_pos_left hx (Nat.two_pow_pos _)
      _ = 2 ^ (fill + 28) := by rw [pow_add]
      _ ≤ 2 ^ 64 := Nat.pow_le_pow_right (by norm_num) hf
  rw [BitVec.toNat_or, BitVec.toNat_shiftLeft, BitVec.toNat_ofNat, Nat.mod_eq_of_lt (a := x) (by omega),
    Nat.shiftLeft_eq, Nat.mul_comm x, Nat.mod_eq_of_lt h1, Nat.or_comm, ← Nat.two_pow_add_eq_or_of_lt hb,
    Nat.add_comm]

theorem byteAdd {f : ℕ} (hf : 8 ≤ f) (b r : ℕ) :
    (b + 2 ^ f * r) % 256 = b % 256 ∧ (b + 2 ^ f * r) / 256 = b / 256 + 2 ^ (f - 8) * r := by
  obtain ⟨g, rfl⟩ : ∃ g, f = 8 + g := ⟨f - 8, by omega⟩
  rw [pow_add, show (2 : ℕ) ^ 8 = 256 by norm_num, Nat.mul_assoc, Nat.add_sub_cancel_left]
  omega

theorem serLoop_spec : ∀ (k : ℕ) (xs : List W32) (fill : ℕ) (buffer : W64),
    (∀ x ∈ xs, x.toNat < 2 ^ 28) → fill < 36 → buffer.toNat < 2 ^ fill →
    serLoop k xs fill buffer = leBytes k (buffer.toNat + 2 ^ fill * limbsNat xs)
  | 0, _, _, _, _, _, _ => rfl
  | k + 1, [], fill, buffer, hx, hf, hb => by
    have ih := serLoop_spec k [] (fill - 8) (buffer >>> 8) (by simp) (by omega) (by
      rw [BitVec.toNat_ushiftRight, Nat.shiftRight_eq_div_pow]
      rcases Nat.lt_or_ge fill 8 with h | h
      · have : 2 ^ fill ≤ 2 ^ 8 := Nat.pow_le_pow_right (by norm_num) h.le
        rw [Nat.div_eq_of_lt (by omega)]
        exact Nat.two_pow_pos _
      · rw [Nat.div_lt_iff_lt_mul (by norm_num), ← pow_add]
        convert hb using 2
        omega)
    simp only [serLoop, limbsNat, Nat.mul_zero, Nat.add_zero, leBytes, ih,
      BitVec.toNat_ushiftRight, Nat.shiftRight_eq_div_pow]
    rfl
  | k + 1, x :: xs, fill, buffer, hx, hf, hb => by
    have hx0 : x.toNat < 2 ^ 28 := hx x (by simp)
    unfold serLoop
    dsimp only
    split
    · next h8 =>
      have e1 : (buffer ||| (u64 x <<< fill)).toNat = buffer.toNat + 2 ^ fill * x.toNat := by
        rw [u64_eq_cast]
        exact or_shl_toNat hb hx0 (by omega)
      generalize hB : buffer ||| (u64 x <<< fill) = B at *
      have hBlt : B.toNat < 2 ^ (fill + 28) := by
        rw [e1, pow_add]
        calc _ < 2 ^ fill + 2 ^ fill * x.toNat := by omega
          _ = 2 ^ fill * (x.toNat + 1) := by ring
          _ ≤ _ := Nat.mul_le_mul_left _ hx0
      have hB8 : (B >>> 8).toNat = B.toNat / 256 := by
        rw [BitVec.toNat_ushiftRight, Nat.shiftRight_eq_div_pow]
      have ih := serLoop_spec k xs (fill + 28 - 8) (B >>> 8) (fun y hy => hx y (by simp [hy])) (by omega) (by
        rw [hB8, Nat.div_lt_iff_lt_mul (by norm_num)]
        calc _ < _ := hBlt
          _ = 2 ^ (fill + 28 - 8) * 2 ^ 8 := by rw [← pow_add]; congr 1
          _ = _ := by norm_num)
      have e2 : buffer.toNat + 2 ^ fill * limbsNat (x :: xs) = B.toNat + 2 ^ (fill + 28) * limbsNat xs := by
        rw [e1, limbsNat, pow_add]; ring
      obtain ⟨h3, h4⟩ := byteAdd (f := fill + 28) (by omega) B.toNat (limbsNat xs)
      rw [ih, e2, leBytes, h4, hB8]
      congr 1
      apply BitVec.eq_of_toNat_eq
      rw [BitVec.toNat_setWidth, BitVec.toNat_ofNat, show (2 : ℕ) ^ 8 = 256 by norm_num, h3]
    · next h8 =>
      have hB8 : (buffer >>> 8).toNat = buffer.toNat / 256 := by
        rw [BitVec.toNat_ushiftRight, Nat.shiftRight_eq_div_pow]
      have ih := serLoop_spec k (x :: xs) (fill - 8) (buffer >>> 8) hx (by omega) (by
        rw [hB8, Nat.div_lt_iff_lt_mul (by norm_num)]
        calc _ < _ := hb
          _ = 2 ^ (fill - 8) * 2 ^ 8 := by rw [← pow_add]; congr 1; omega
          _ = _ := by norm_num)
      obtain ⟨h3, h4⟩ := byteAdd (f := fill) (by omega) buffer.toNat (limbsNat (x :: xs))
      rw [ih, leBytes, h4, hB8]
      congr 1
      apply BitVec.eq_of_toNat_eq
      rw [BitVec.toNat_setWidth, BitVec.toNat_ofNat, show (2 : ℕ) ^ 8 = 256 by norm_num, h3]

theorem limbsNat_toList (n : BN) : limbsNat n.toList = n.val := by
  simp only [BN.toList, limbsNat, BN.val, BN.ev, Nat.cast_id]
  generalize 2 ^ 28 = t
  ring

theorem BN.Lt.mem_toList {n : BN} {B : ℕ} (h : n.Lt B) : ∀ x ∈ n.toList, x.toNat < B := by
  obtain ⟨h0, h1, h2, h3, h4, h5, h6, h7, h8, h9, h10, h11, h12, h13, h14, h15⟩ := h
  intro y hy
  simp only [BN.toList, List.mem_cons, List.not_mem_nil, or_false] at hy
  rcases hy with h | h | h | h | h | h | h | h | h | h | h | h | h | h | h | h <;> rw [h] <;> assumption

theorem serLoop_val {n : BN} (h : n.Lt (2 ^ 28)) : serLoop 56 n.toList 0 0 = leBytes 56 n.val := by
  have := serLoop_spec 56 n.toList 0 0 h.mem_toList (by norm_num) (by decide)
  rw [this, limbsNat_toList, pow_zero, Nat.one_mul, show (0 : W64).toNat = 0 from rfl, Nat.zero_add]

/-- Serialization writes the canonical representative, little-endian. -/
theorem dsa_like_serialize_spec {x : BN} (hx : x.l8.toNat < 2 ^ 32 - 16) :
    (dsa_like_serialize x).1 = leBytes 56 x.toF.val := by
  rw [← strong_reduce_val hx]
  exact serLoop_val (strong_reduce_spec hx).2.2

/-- The 28-bit digits of a number. -/
def digits28 : ℕ → ℕ → List W32
  | 0, _ => []
  | k + 1, v => BitVec.ofNat 32 (v % 2 ^ 28) :: digits28 k (v / 2 ^ 28)

@[simp] theorem digits28_length : ∀ k v, (digits28 k v).length = k
  | 0, _ => rfl
  | k + 1, v => by simp [digits28, digits28_length k]

theorem limbsNat_digits28 : ∀ k v, limbsNat (digits28 k v) = v % (2 ^ 28) ^ k
  | 0, v => by simp [digits28, limbsNat, Nat.mod_one]
  | k + 1, v => by
    rw [digits28, limbsNat, limbsNat_digits28 k, BitVec.toNat_ofNat, pow_succ' (2 ^ 28) k,
      Nat.mod_mul (a := 2 ^ 28), Nat.mod_eq_of_lt (a := v % 2 ^ 28)]
    have := Nat.mod_lt v (show 0 < 2 ^ 28 by norm_num)
    omega

/-- The bytes from position `j` on, up to 56. -/
def restNat (input : Arr Byte 57) (j : ℕ) : ℕ := leNat ((input.1.take 56).drop j)

theorem restNat_step (input : Arr Byte 57) {j : ℕ} (hj : j < 56) (hj' : j < input.1.length) :
    restNat input j = (input.1[j]).toNat + 256 * restNat input (j + 1) := by
  have hlen : (input.1.take 56).length = 56 := by simp [input.2]
  rw [restNat, List.drop_eq_getElem_cons (by omega), leNat, List.getElem_take]
  rfl

theorem desFill_spec (input : Arr Byte 57) : ∀ (k fill j : ℕ) (buffer : W64),
    28 ≤ fill + 8 * k → fill < 36 → buffer.toNat < 2 ^ fill → j ≤ 56 → 28 ≤ fill + 8 * (56 - j) →
    ∃ f' j' B, desFill k input fill j buffer = (f', j', B) ∧ 28 ≤ f' ∧ f' < 36 ∧ j' ≤ 56 ∧ B.toNat < 2 ^ f' ∧
      f' + 8 * (56 - j') = fill + 8 * (56 - j) ∧
      B.toNat + 2 ^ f' * restNat input j' = buffer.toNat + 2 ^ fill * restNat input j
  | 0, fill, j, buffer, hk, hf, hb, hj, ht => ⟨fill, j, buffer, rfl, by omega, hf, hj, hb, rfl, rfl⟩
  | k + 1, fill, j, buffer, hk, hf, hb, hj, ht => by
    unfold desFill
    split
    · next h =>
      have hjl : j < input.1.length := by rw [input.2]; omega
      dsimp only
      have hs := (input.1[j]).isLt
      have e1 : (buffer ||| ((input.1[j]).setWidth 64 <<< fill)).toNat = buffer.toNat + 2 ^ fill * (input.1[j]).toNat := by
        have := or_shl_toNat (b := buffer) (x := (input.1[j]).toNat) hb (by omega) (by omega)
        rw [← this, ← BitVec.ofNat_toNat]
      generalize buffer ||| ((input.1[j]).setWidth 64 <<< fill) = B at *
      obtain ⟨f', j', B', h1, h2, h3, h4, h5, h6, h7⟩ := desFill_spec input k (fill + 8) (j + 1) B (by omega) (by omega)
        (by
          rw [e1, pow_add]
          calc _ < 2 ^ fill + 2 ^ fill * (input.1[j]).toNat := by omega
            _ = 2 ^ fill * ((input.1[j]).toNat + 1) := by ring
            _ ≤ _ := Nat.mul_le_mul_left _ hs) (by omega) (by omega)
      refine ⟨f', j', B', h1, h2, h3, h4, h5, by omega, ?_⟩
      rw [h7, e1, restNat_step input h.2 hjl, pow_add]
      ring
    · next h =>
      exact ⟨fill, j, buffer, rfl, by omega, hf, hj, hb, rfl, rfl⟩

/-- The comparison chain of deserialization, on the limbs. -/
def scarryChain : List W32 → List W32 → W32 → W32
  | n :: ns, m :: ms, s => scarryChain ns ms (((s + n - m) >>> 8) * 4)
  | _, _, s => s

theorem desLoop_spec (input : Arr Byte 57) : ∀ (ms : List W32) (i fill j : ℕ) (buffer : W64) (s : W32),
    i + ms.length = 16 → buffer.toNat < 2 ^ fill → fill < 8 → j ≤ 56 → fill + 8 * (56 - j) = 28 * ms.length →
    buffer.toNat + 2 ^ fill * restNat input j < 2 ^ (28 * ms.length) →
    desLoop input ((List.range' i ms.length).zip ms) fill j buffer s =
      (digits28 ms.length (buffer.toNat + 2 ^ fill * restNat input j), 0,
        scarryChain (digits28 ms.length (buffer.toNat + 2 ^ fill * restNat input j)) ms s)
  | [], i, fill, j, buffer, s, hi, hb, hf, hj, ht, hR => by
    simp only [List.length_nil, Nat.mul_zero, pow_zero] at ht hR
    have : buffer = 0 := BitVec.eq_of_toNat_eq (by
      show buffer.toNat = 0
      omega)
    simp [desLoop, digits28, scarryChain, this]
  | m :: ms, i, fill, j, buffer, s, hi, hb, hf, hj, ht, hR => by
    simp only [List.length_cons] at hi ht hR ⊢
    obtain ⟨f', j', B, h1, h2, h3, h4, h5, h6, h7⟩ := desFill_spec input 4 fill j buffer (by omega) (by omega) hb hj (by omega)
    rw [← h7] at hR ⊢
    rw [List.range'_succ, List.zip_cons_cons, desLoop, h1]
    dsimp only
    have hBlt : B.toNat < 2 ^ 36 := lt_of_lt_of_le h5 (Nat.pow_le_pow_right (by norm_num) (by omega))
    obtain ⟨g, rfl⟩ : ∃ g, f' = 28 + g := ⟨f' - 28, by omega⟩
    have eR : (B.toNat + 2 ^ (28 + g) * restNat input j') % 2 ^ 28 = B.toNat % 2 ^ 28 ∧
        (B.toNat + 2 ^ (28 + g) * restNat input j') / 2 ^ 28 = B.toNat / 2 ^ 28 + 2 ^ g * restNat input j' := by
      rw [pow_add, Nat.mul_assoc]
      omega
    have hB28 : (B >>> 28).toNat = B.toNat / 2 ^ 28 := by
      rw [BitVec.toNat_ushiftRight, Nat.shiftRight_eq_div_pow]
    have hni : (if i ≥ 15 then lo32 B else lo32 (B &&& ((1 <<< 28) - 1))) = BitVec.ofNat 32 (B.toNat % 2 ^ 28) := by
      apply BitVec.eq_of_toNat_eq
      have hm := Nat.mod_lt B.toNat (show 0 < 2 ^ 28 by norm_num)
      rw [BitVec.toNat_ofNat, Nat.mod_eq_of_lt (a := B.toNat % 2 ^ 28) (by omega)]
      split
      · next h15 =>
        have hms : ms.length = 0 := by omega
        rw [hms] at hR
        rw [lo32, BitVec.toNat_setWidth]
        omega
      · rw [lo32, BitVec.toNat_setWidth, BitVec.toNat_and]
        rw [show ((1 <<< 28 - 1 : W64)).toNat = 2 ^ 28 - 1 from rfl, Nat.and_two_pow_sub_one_eq_mod]
        omega
    rw [hni, digits28, scarryChain, eR.1, eR.2, ← hB28, Nat.add_sub_cancel_left]
    have ih := desLoop_spec input ms (i + 1) g j' (B >>> 28)
      (((s + BitVec.ofNat 32 (B.toNat % 2 ^ 28) - m) >>> 8) * 4) (by omega) (by
        rw [hB28, Nat.div_lt_iff_lt_mul (by norm_num), ← pow_add, Nat.add_comm]
        exact h5) (by omega) h4 (by omega) (by
        rw [hB28, ← eR.2, Nat.div_lt_iff_lt_mul (by norm_num), ← pow_add]
        convert hR using 2
        ring)
    rw [ih]

theorem limbsNat_ofList {l : List W32} (h : l.length = 16) : (BN.ofList l).val = limbsNat l := by
  match l, h with
  | [a0, a1, a2, a3, a4, a5, a6, a7, a8, a9, a10, a11, a12, a13, a14, a15], _ =>
    rw [← limbsNat_toList]
    rfl

set_option exponentiation.threshold 1000 in
/-- Deserialization reads the first 56 bytes as a little-endian number. -/
theorem dsa_like_deserialize_spec (input : Arr Byte 57) :
    dsa_like_deserialize input = (BN.ofList (digits28 16 (leNat (input.1.take 56))),
      maskOf (scarryChain (digits28 16 (leNat (input.1.take 56))) MODULUS 0 != 0)) := by
  have hlt : leNat (input.1.take 56) < 2 ^ 448 := by
    have := leNat_lt (input.1.take 56)
    rw [List.length_take, input.2] at this
    calc _ < _ := this
      _ = _ := by rw [show min 56 57 = 56 from rfl, show 256 = 2 ^ 8 from rfl, ← pow_mul]
  have h := desLoop_spec input MODULUS 0 0 0 0 0 rfl (by decide) (by norm_num) (by norm_num) (by decide)
    (by
      rw [show MODULUS.length = 16 from rfl, show (0 : W64).toNat = 0 from rfl]
      simpa [restNat] using hlt)
  simp only [dsa_like_deserialize]
  rw [show (List.range 16).zip MODULUS = (List.range' 0 MODULUS.length).zip MODULUS from rfl, h]
  simp only [show (0 : W64).toNat = 0 from rfl, pow_zero, Nat.one_mul, Nat.zero_add,
    show MODULUS.length = 16 from rfl, restNat, List.drop_zero, is_zero_mask_spec]
  generalize scarryChain _ _ _ = s
  congr 1
  by_cases hs : s = 0
  · subst hs; rfl
  · rw [if_neg hs, show (s != 0) = true by rw [bne_iff_ne]; exact hs]
    rfl

end Ed448
