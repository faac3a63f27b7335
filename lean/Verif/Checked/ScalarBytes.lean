import Verif.Checked.Scalar

/-!
# The checked loops of src/scalar.rs, continued: bytes
-/

namespace Ed448

/-! ## `decode_short` -/

/-- The body of the inner loop of `decode_short`. -/
abbrev packBody (b : List Byte) (size : ℕ) : ℕ → W32 × ℕ → Rust (W32 × ℕ) := fun j (out, k) => do
  if k ≥ size then pure (out, k)
  else do
    let bk ← idx b k
    pure (out ||| (bk.setWidth 32 <<< (8 * j)), k + 1)

theorem packBody_loop (b : List Byte) (size : ℕ) (hs : size ≤ b.length) : ∀ (n j k : ℕ) (out : W32), k ≤ size →
    loop (packBody b size) (List.range' j n) (out, k) = .ok ((packWord n j out ((b.take size).drop k)).1, min (k + n) size) ∧
      (packWord n j out ((b.take size).drop k)).2 = (b.take size).drop (k + n)
  | 0, j, k, out, hk => by
    simp only [List.range', loop, packWord, pure_ok, Nat.add_zero]
    exact ⟨by congr 2; omega, trivial⟩
  | n + 1, j, k, out, hk => by
    simp only [List.range', loop]
    by_cases h : k ≥ size
    · have ek : k = size := by omega
      subst ek
      have hd : ∀ m, (b.take k).drop (k + m) = [] := fun m => List.drop_of_length_le (by simp)
      have hd0 := hd 0
      rw [Nat.add_zero] at hd0
      rw [packBody, if_pos h, pure_ok, bind_ok']
      obtain ⟨ih, _⟩ := packBody_loop b k hs n (j + 1) k out (by omega)
      rw [ih, hd0, hd]
      have e : ∀ n j, packWord n j out [] = (out, []) := fun n j => by cases n <;> rfl
      rw [e, e]
      exact ⟨by congr 2; omega, rfl⟩
    · have hk' : k < (b.take size).length := by simp; omega
      have hd : (b.take size).drop k = b[k] :: (b.take size).drop (k + 1) := by
        rw [List.drop_eq_getElem_cons hk', List.getElem_take]
      rw [packBody, if_neg h, idx_eq _ _ (by omega), bind_ok', pure_ok, bind_ok', hd, packWord]
      obtain ⟨ih, ih2⟩ := packBody_loop b size hs n (j + 1) (k + 1) (out ||| (b[k].setWidth 32 <<< (8 * j))) (by omega)
      exact ⟨by rw [ih]; congr 2; omega, by rw [ih2]; congr 1; omega⟩

theorem packLoop_eq (b : List Byte) (size k : ℕ) (hs : size ≤ b.length) (hk : k ≤ size) :
    Chk.packLoop b size k = .ok ((packWord 4 0 0 ((b.take size).drop k)).1, min (k + 4) size) := by
  rw [Chk.packLoop, forTo, List.range_eq_range']
  exact (packBody_loop b size hs 4 0 k 0 hk).1

theorem packWord_rest : ∀ (n j : ℕ) (w : W32) (l : List Byte), (packWord n j w l).2 = l.drop n
  | 0, _, _, _ => rfl
  | _ + 1, _, _, [] => by simp [packWord]
  | n + 1, j, w, _ :: l => by rw [packWord, packWord_rest n, List.drop_succ_cons]

theorem packWords_snoc : ∀ (n : ℕ) (l : List Byte), packWords (n + 1) l = packWords n l ++ [(packWord 4 0 0 (l.drop (4 * n))).1]
  | 0, l => by simp [packWords]
  | n + 1, l => by
    rw [packWords, packWords_snoc n, packWord_rest, List.drop_drop, packWords, packWord_rest, List.cons_append]
    congr 6
    omega

/-- `decode_short` stays inside the arrays if the string has at least `size` bytes. -/
theorem Chk.decode_short_eq (b : List Byte) (size : ℕ) (hs : size ≤ b.length) :
    Chk.decode_short b size = .ok (Ed448.decode_short b size).1 := by
  rw [Chk.decode_short]
  dsimp only
  rw [forTo_eq 14 _ _ (fun i => (packWords i (b.take size) ++ List.replicate (14 - i) 0, min (4 * i) size)) (by simp [packWords])]
  · simp [Ed448.decode_short, pure_ok, bind_ok']
  · intro i hi
    dsimp only
    rw [packLoop_eq b size _ hs (by omega), bind_ok']
    dsimp only
    have hl := packWords_length i (b.take size)
    rw [setIdx_eq _ _ _ (by rw [List.length_append, hl, List.length_replicate]; omega), bind_ok', pure_ok]
    have hd : (b.take size).drop (min (4 * i) size) = (b.take size).drop (4 * i) := by
      by_cases h : 4 * i ≤ size
      · rw [min_eq_left h]
      · rw [min_eq_right (by omega), List.drop_of_length_le (by simp), List.drop_of_length_le (by simp; omega)]
    rw [packWords_snoc, hd, List.set_append_right _ _ (by omega), hl, Nat.sub_self, List.append_assoc,
      show 14 - i = (14 - (i + 1)) + 1 by omega, List.replicate_succ, List.set_cons_zero]
    congr 2
    omega

/-! ## `decode` -/

theorem take_succ_eq {α : Type} (l : List α) (i : ℕ) (h : i < l.length) : l.take (i + 1) = l.take i ++ [l[i]] := by
  rw [List.take_add_one, List.getElem?_eq_getElem h]; rfl

/-- `decode`, with its unused accumulator, neither overflows nor leaves the arrays if the string has at least 56 bytes. -/
theorem Chk.decode_eq (b : List Byte) (hb : 56 ≤ b.length) : Chk.decode b = .ok (scalarDecode b).1 := by
  rw [Chk.decode, Chk.decode_short_eq b 56 hb, bind_ok']
  have ls := (Ed448.decode_short b 56).2
  have lq := SCALAR_Q.2
  have hm := Chk.mul_eq (Ed448.decode_short b 56) SCALAR_ONE
  rw [scalarDecode]
  generalize (Ed448.decode_short b 56) = s at ls hm
  rw [forTo_eq 14 (0 : ℤ) _ (fun i => (subChain (s.1.take i) (SCALAR_Q.1.take i) 0).2) (by simp [subChain]), bind_ok']
  · exact hm
  · intro i hi
    have hb := subChain_bounds (s.1.take i) (SCALAR_Q.1.take i) 0 (by omega)
    have h1 := (s.1[i]'(by omega)).isLt
    have h2 := (SCALAR_Q.1[i]'(by omega)).isLt
    rw [idx_eq _ _ (by omega), bind_ok', idx_eq _ _ (by omega), bind_ok', chkI64_ok (by omega) (by omega), bind_ok',
      chkI64_ok (by omega) (by omega), bind_ok', pure_ok, take_succ_eq _ _ (by omega), take_succ_eq _ _ (by omega),
      subChain_scan, subChain_scan, scan_snoc _ _ _ _ _ _ (by simp; omega), fSub]

/-! ## `encode` -/

theorem wordBytes_get (w : W32) (j : ℕ) (h : j < (wordBytes w).length) : (wordBytes w)[j] = (w >>> (8 * j)).setWidth 8 := by
  have hj : j < 4 := h
  have hj' : j = 0 ∨ j = 1 ∨ j = 2 ∨ j = 3 := by omega
  rcases hj' with rfl | rfl | rfl | rfl
  · simp [wordBytes]
  · simp [wordBytes]
  · simp [wordBytes]
  · simp [wordBytes]

/-- `encode` stays inside the arrays. -/
theorem Chk.encode_eq (s : Scalar) : Chk.encode s.1 = .ok (scalarEncode s).1 := by
  have ls := s.2
  rw [Chk.encode]
  dsimp only
  rw [forTo_eq 14 _ _ (fun i => ((s.1.take i).flatMap wordBytes ++ List.replicate (57 - 4 * i) 0, 4 * i)) (by simp)]
  · rw [List.take_of_length_le (by omega)]
    rfl
  · intro i hi
    have hl : ((s.1.take i).flatMap wordBytes).length = 4 * i := by
      rw [flatMap_wordBytes_length, List.length_take]; omega
    have hw : (wordBytes s.1[i]).length = 4 := rfl
    rw [forTo_eq 4 _ _ (fun j => ((s.1.take i).flatMap wordBytes ++ ((wordBytes s.1[i]).take j ++ List.replicate (57 - 4 * i - j) 0), 4 * i + j))
      (by simp)]
    · rw [take_succ_eq s.1 i (by omega), List.flatMap_append, List.take_of_length_le (hw.le), List.append_assoc]
      simp only [List.flatMap_cons, List.flatMap_nil, List.append_nil]
      congr 4
    · intro j hj
      dsimp only
      rw [idx_eq _ _ (by omega), bind_ok', setIdx_eq _ _ _ (by simp [hl, hw]; omega), bind_ok', pure_ok]
      have hr : List.replicate (57 - 4 * i - j) (0 : Byte) = 0 :: List.replicate (57 - 4 * i - (j + 1)) 0 := by
        rw [show 57 - 4 * i - j = (57 - 4 * i - (j + 1)) + 1 by omega, List.replicate_succ]
      have ht : ((wordBytes s.1[i]).take j).length = j := by rw [List.length_take, hw]; omega
      rw [List.set_append_right _ _ (by omega), hl, List.set_append_right _ _ (by omega), ht,
        show 4 * i + j - 4 * i - j = 0 by omega, hr, List.set_cons_zero, take_succ_eq _ j (by omega), List.append_assoc]
      rw [wordBytes_get]
      rfl

/-! ## `decode_long` -/

theorem slice_end (b : List Byte) (lo : ℕ) (h : lo ≤ b.length) : slice b lo b.length = .ok (b.drop lo) := by
  rw [slice, if_pos ⟨h, le_refl _⟩, List.take_of_length_le (by simp)]

theorem decode_long_while (b : List Byte) : ∀ (k fuel : ℕ) (res : Scalar), 56 * k ≤ b.length → k < fuel →
    while' (fun st : ℕ × List W32 => decide (st.1 > 0)) (fun (size, res) => do
      let size ← subU size 56
      let res ← Chk.montgomery_multiply res SCALAR_R2.1
      let sl ← slice b size b.length
      let y ← Chk.decode sl
      let res ← Chk.add res y
      pure (size, res)) fuel (56 * k, res.1) = .ok (0, (decodeLongLoop b k res).1)
  | k, 0, _, _, h => absurd h (by omega)
  | 0, fuel + 1, res, _, _ => by simp [while', decodeLongLoop, pure_ok]
  | k + 1, fuel + 1, res, hk, hf => by
    have ih := decode_long_while b k fuel (scalarAdd (Ed448.montgomery_multiply res SCALAR_R2) (scalarDecode (b.drop (56 * k)))) (by omega) (by omega)
    rw [while', if_pos (by simp)]
    dsimp only
    rw [subU_ok (by omega), bind_ok', Chk.montgomery_multiply_eq, bind_ok', show 56 * (k + 1) - 56 = 56 * k by omega,
      slice_end _ _ (by omega), bind_ok', Chk.decode_eq _ (by simp; omega), bind_ok', Chk.add_eq, bind_ok', pure_ok, bind_ok', ih]
    rfl

theorem Chk.decode_long_from_eq (b : List Byte) (k : ℕ) (hk : 56 * k ≤ b.length) :
    Chk.decode_long_from b (56 * k) = .ok (if b.length = 56 then scalarMul (Ed448.decode_short (b.drop (56 * k)) (b.length - 56 * k)) SCALAR_ONE
      else decodeLongLoop b k (Ed448.decode_short (b.drop (56 * k)) (b.length - 56 * k))).1 := by
  rw [Chk.decode_long_from]
  dsimp only
  rw [slice_end _ _ hk, bind_ok', subU_ok hk, bind_ok', Chk.decode_short_eq _ _ (by simp), bind_ok']
  by_cases h56 : b.length = 56
  · rw [if_pos h56, if_pos h56, Chk.mul_eq]
  · rw [if_neg h56, if_neg h56, decode_long_while b k _ _ hk (by omega), bind_ok']
    rfl

/-- `decode_long` neither panics nor overflows, for strings of every length. -/
theorem Chk.decode_long_eq (b : List Byte) : Chk.decode_long b = .ok (Ed448.decode_long b).1 := by
  rw [Chk.decode_long, Ed448.decode_long]
  dsimp only
  have hm := Nat.mod_lt b.length (by norm_num : 0 < 56)
  have hd := Nat.div_add_mod b.length 56
  rw [subU_ok (Nat.mod_le _ _), bind_ok']
  by_cases h0 : b.length = 0
  · rw [if_pos h0, if_pos h0]
    rfl
  · rw [if_neg h0, if_neg h0]
    by_cases h1 : b.length - b.length % 56 = b.length
    · rw [if_pos h1, if_pos h1, subU_ok (by omega), bind_ok']
      have e : b.length - b.length % 56 - 56 = 56 * (b.length / 56 - 1) := by omega
      rw [e, Chk.decode_long_from_eq b _ (by omega), show 56 * (b.length / 56 - 1) / 56 = b.length / 56 - 1 by omega]
    · rw [if_neg h1, if_neg h1]
      have e : b.length - b.length % 56 = 56 * (b.length / 56) := by omega
      rw [e, Chk.decode_long_from_eq b _ (by omega), show 56 * (b.length / 56) / 56 = b.length / 56 by omega]

end Ed448
