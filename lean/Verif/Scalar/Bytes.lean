import Verif.Scalar.Mul

/-! # Scalars and byte strings -/

set_option exponentiation.threshold 1000

namespace Ed448

theorem pack_or (n j : ℕ) (b : Byte) (w : W32) (hj : n = 8 * j) (hn : j < 4) (hw : w.toNat < 2 ^ n) :
    (w ||| (b.setWidth 32 <<< (8 * j))).toNat = w.toNat + 2 ^ n * b.toNat := by
  have hb := b.isLt
  subst hj
  have hs : (b.setWidth 32 <<< (8 * j)).toNat = 2 ^ (8 * j) * b.toNat := by
    have h1 : (b.setWidth 32).toNat = b.toNat := by rw [BitVec.toNat_setWidth]; omega
    rw [BitVec.toNat_shiftLeft, h1, Nat.shiftLeft_eq, Nat.mod_eq_of_lt, Nat.mul_comm]
    calc b.toNat * 2 ^ (8 * j) < 2 ^ 8 * 2 ^ (8 * j) := Nat.mul_lt_mul_of_pos_right hb (by positivity)
      _ = 2 ^ (8 + 8 * j) := by rw [pow_add]
      _ ≤ 2 ^ 32 := Nat.pow_le_pow_right (by norm_num) (by omega)
  rw [BitVec.toNat_or, hs, Nat.or_comm, ← Nat.two_pow_add_eq_or_of_lt hw]
  ring

theorem packWord_spec : ∀ (n j : ℕ) (w : W32) (l : List Byte), n + j ≤ 4 → w.toNat < 2 ^ (8 * j) →
    (packWord n j w l).1.toNat = w.toNat + 2 ^ (8 * j) * leNat (l.take n) ∧ (packWord n j w l).2 = l.drop n
  | 0, j, w, l, _, _ => by simp [packWord, leNat]
  | n + 1, j, w, [], _, _ => by simp [packWord, leNat]
  | n + 1, j, w, b :: l, h, hw => by
    have hb := b.isLt
    have ho := pack_or _ j b w rfl (by omega) hw
    have hlt : (w ||| (b.setWidth 32 <<< (8 * j))).toNat < 2 ^ (8 * (j + 1)) := by
      rw [ho, show 8 * (j + 1) = 8 + 8 * j by ring, pow_add]
      have : 2 ^ (8 * j) * (b.toNat + 1) ≤ 2 ^ (8 * j) * 2 ^ 8 := Nat.mul_le_mul_left _ hb
      rw [Nat.mul_comm (2 ^ 8)]
      rw [Nat.mul_add, Nat.mul_one] at this
      omega
    have ih := packWord_spec n (j + 1) _ l (by omega) hlt
    rw [packWord, List.take_succ_cons, List.drop_succ_cons, leNat]
    refine ⟨?_, ih.2⟩
    rw [ih.1, ho, show 8 * (j + 1) = 8 + 8 * j by ring, pow_add]
    ring

theorem packWords_spec : ∀ (n : ℕ) (l : List Byte), wordsNat (packWords n l) = leNat (l.take (4 * n))
  | 0, l => by simp [packWords, wordsNat, leNat]
  | n + 1, l => by
    obtain ⟨h1, h2⟩ := packWord_spec 4 0 0 l (by norm_num) (by decide)
    rw [packWords, wordsNat, h1, h2, packWords_spec n]
    rw [show 4 * (n + 1) = 4 + 4 * n by ring, List.take_add, leNat_append]
    rw [show BitVec.toNat (0 : W32) = 0 from rfl, Nat.zero_add, Nat.mul_zero, pow_zero, Nat.one_mul]
    congr 1
    rcases Nat.lt_or_ge l.length 4 with h | h
    · rw [List.drop_eq_nil_of_le h.le]; simp [leNat]
    · rw [List.length_take, Nat.min_eq_left h]; norm_num

theorem decode_short_val (b : List Byte) (size : ℕ) : (decode_short b size).val = leNat ((b.take size).take 56) :=
  packWords_spec 14 _

theorem one_lt_q : 1 < q := q_prime.one_lt

/-- `decode` reduces the first 56 bytes. -/
theorem scalarDecode_val (b : List Byte) : (scalarDecode b).val = leNat (b.take 56) % q := by
  unfold scalarDecode
  rw [scalarMul_val _ _ (by rw [SCALAR_ONE_val]; exact one_lt_q), SCALAR_ONE_val, Nat.mul_one, decode_short_val, List.take_take,
    Nat.min_self]

theorem wordBytes_eq (w : W32) : wordBytes w = leBytes 4 w.toNat := by
  simp only [wordBytes, leBytes]
  refine List.ext_getElem (by simp) ?_
  intro i h1 h2
  have : i < 4 := by simpa using h1
  interval_cases i <;> apply BitVec.eq_of_toNat_eq <;>
    simp [BitVec.toNat_setWidth, BitVec.toNat_ofNat, Nat.shiftRight_eq_div_pow, Nat.div_div_eq_div_mul]

theorem leBytes_mod (k v : ℕ) : leBytes k (v % 256 ^ k) = leBytes k v := by
  apply leNat_inj
  · simp
  · rw [leNat_leBytes, leNat_leBytes, Nat.mod_mod]

theorem flatMap_wordBytes : ∀ l : List W32, l.flatMap wordBytes = leBytes (4 * l.length) (wordsNat l)
  | [] => rfl
  | w :: ws => by
    have := w.isLt
    rw [List.flatMap_cons, flatMap_wordBytes ws, wordBytes_eq, wordsNat, List.length_cons,
      show 4 * (ws.length + 1) = 4 + 4 * ws.length by ring, leBytes_append]
    congr 1
    · rw [← leBytes_mod 4 (_ + _)]
      congr 1
      omega
    · congr 1
      omega

/-- `encode` writes the scalar as 57 little-endian bytes. -/
theorem scalarEncode_val (s : Scalar) : (scalarEncode s).1 = leBytes 57 s.val := by
  have h := s.val_lt
  show s.1.flatMap wordBytes ++ [0] = _
  rw [flatMap_wordBytes, s.2, show 57 = 4 * 14 + 1 from rfl, leBytes_append]
  congr 1
  show _ = leBytes 1 (s.val / 256 ^ 56)
  rw [Nat.div_eq_of_lt (by omega)]
  rfl

/-- The loop of `decode_long`. -/
theorem decodeLongLoop_val (b : List Byte) : ∀ (k : ℕ) (r : Scalar), 56 * k ≤ b.length → (r.val < q ∨ 0 < k) →
    (decodeLongLoop b k r).val < q ∧
    (decodeLongLoop b k r).val % q = (leNat (b.take (56 * k)) + 256 ^ (56 * k) * r.val) % q
  | 0, r, _, hr => by
    have : r.val < q := hr.resolve_right (lt_irrefl 0)
    simpa [decodeLongLoop, leNat] using this
  | k + 1, r, h, _ => by
    rw [decodeLongLoop]
    have hy := scalarDecode_val (b.drop (56 * k))
    have hr := montgomery_R2 r
    have hylt : (scalarDecode (b.drop (56 * k))).val < q := by rw [hy]; exact Nat.mod_lt _ q_pos
    have hrlt : (montgomery_multiply r SCALAR_R2).val < q := by rw [hr]; exact Nat.mod_lt _ q_pos
    have ha := scalarAdd_val (montgomery_multiply r SCALAR_R2) (scalarDecode (b.drop (56 * k))) (by omega)
    have halt : (scalarAdd (montgomery_multiply r SCALAR_R2) (scalarDecode (b.drop (56 * k)))).val < q := by
      rw [ha]; exact Nat.mod_lt _ q_pos
    obtain ⟨h1, h2⟩ := decodeLongLoop_val b k _ (by omega) (Or.inl halt)
    refine ⟨h1, ?_⟩
    rw [h2, ha, hy, hr, ← Nat.add_mod, Nat.add_mod, Nat.mul_mod, Nat.mod_mod, ← Nat.mul_mod, ← Nat.add_mod]
    have e1 : leNat (b.take (56 * (k + 1))) = leNat (b.take (56 * k)) + 256 ^ (56 * k) * leNat ((b.drop (56 * k)).take 56) := by
      rw [show 56 * (k + 1) = 56 * k + 56 by ring, List.take_add, leNat_append, List.length_take, Nat.min_eq_left (by omega)]
    have e2 : 256 ^ (56 * (k + 1)) = 256 ^ (56 * k) * 2 ^ 448 := by
      rw [show 56 * (k + 1) = 56 * k + 56 by ring, pow_add, show 256 ^ 56 = 2 ^ 448 by norm_num]
    rw [e1, e2]
    generalize 256 ^ (56 * k) = t
    generalize leNat (b.take (56 * k)) = u
    generalize leNat ((b.drop (56 * k)).take 56) = v
    generalize 2 ^ 448 = w
    rw [show u + t * (r.val * w + v) = u + t * v + t * w * r.val by ring]

/-- `decode_long` reads a little-endian number of any length modulo q. -/
theorem decode_long_val (b : List Byte) : (decode_long b).val = leNat b % q := by
  unfold decode_long
  have hq2 : 2 ^ 445 < q := by rw [q_def]; decide +kernel
  simp only
  have hm : b.length % 56 < 56 := Nat.mod_lt _ (by norm_num)
  split
  · next h =>
    rw [List.length_eq_zero_iff] at h
    rw [h, SCALAR_ZERO_val]; simp [leNat]
  · next h =>
    have hsz : ∀ s, s = (if b.length - b.length % 56 = b.length then b.length - b.length % 56 - 56 else b.length - b.length % 56) →
        s % 56 = 0 ∧ s < b.length ∧ b.length ≤ s + 56 := by
      intro s hs
      split at hs <;> omega
    generalize (if b.length - b.length % 56 = b.length then b.length - b.length % 56 - 56 else b.length - b.length % 56) = s at hsz
    obtain ⟨h1, h2, h3⟩ := hsz s rfl
    have hd : (decode_short (b.drop s) (b.length - s)).val = leNat (b.drop s) := by
      rw [decode_short_val]
      rw [List.take_of_length_le (by simp; omega), List.take_of_length_le (by simp)]
    split
    · next h56 =>
      have hs0 : s = 0 := by omega
      rw [scalarMul_val _ _ (by rw [SCALAR_ONE_val]; exact one_lt_q), SCALAR_ONE_val, Nat.mul_one, hd, hs0, List.drop_zero]
    · next h56 =>
      have hk : 56 * (s / 56) = s := by omega
      have hlt : (decode_short (b.drop s) (b.length - s)).val < q ∨ 0 < s / 56 := by
        rcases Nat.eq_zero_or_pos (s / 56) with h0 | h0
        · left
          have hs0 : s = 0 := by omega
          rw [hd, hs0, List.drop_zero]
          have := leNat_lt b
          have h55 : 256 ^ b.length ≤ 256 ^ 55 := Nat.pow_le_pow_right (by norm_num) (by omega)
          have h256 : 256 ^ 55 = 2 ^ 440 := by norm_num
          omega
        · right; exact h0
      obtain ⟨g1, g2⟩ := decodeLongLoop_val b (s / 56) _ (by omega) hlt
      rw [Nat.mod_eq_of_lt g1, hk, hd] at g2
      have e : leNat b = leNat (b.take s) + 256 ^ s * leNat (b.drop s) := by
        conv_lhs => rw [← List.take_append_drop s b, leNat_append, List.length_take, Nat.min_eq_left h2.le]
      rw [g2, e]

end Ed448
