import Verif.Properties.AllKeys

/-!
# C90: how often a signature is rejected under the key of its maker

C05 and C27 are false: for some keys and some nonces the signature is rejected. Here this is shown to be rare, for a random private key and a random hash function.
-/

namespace Ed448

set_option exponentiation.threshold 1000

/-! ## Chances -/

theorem chance_equiv {α β : Type} (e : α ≃ β) (P : β → Prop) : chance {a | P (e a)} = chance {b | P b} := by
  rw [chance, chance, Nat.card_congr e]
  congr 2
  have h : {b | P b} = e '' {a | P (e a)} := by
    ext b
    rw [Set.mem_image]
    exact ⟨fun h => ⟨e.symm b, by simpa using h, by simp⟩, by rintro ⟨a, h, rfl⟩; exact h⟩
  rw [h, Set.ncard_image_of_injective _ e.injective]

theorem chance_congr {α : Type} {P Q : α → Prop} (h : ∀ a, P a ↔ Q a) : chance {a | P a} = chance {a | Q a} := by
  have e : P = Q := funext fun a => propext (h a)
  rw [e]

theorem chance_imp {α : Type} [Finite α] {P Q : α → Prop} (h : ∀ a, P a → Q a) : chance {a | P a} ≤ chance {a | Q a} := chance_mono h

theorem chance_swap {α β : Type} (P : α × β → Prop) : chance {x | P x} = chance {x : β × α | P x.swap} :=
  (chance_equiv (Equiv.prodComm β α) P).symm

theorem chance_fst {α β : Type} [Finite α] [Finite β] [Nonempty α] [Nonempty β] (S : Set α) : chance {x : α × β | x.1 ∈ S} = chance S := by
  rw [chance_swap]
  exact chance_snd S

/-- The value of a random function at one place. -/
theorem chance_at {ι β : Type} [Finite ι] [Finite β] [Nonempty β] (i : ι) (S : Set β) : chance {f : ι → β | f i ∈ S} = chance S := by
  classical
  have h := chance_equiv (Equiv.funSplitAt i β) fun x => x.1 ∈ S
  rw [← chance_fst (β := {j // j ≠ i} → β) S, ← h]
  rfl

/-- The sum over the values. -/
theorem chance_values {α : Type} [Finite α] (f : α → ℕ) (S : Finset ℕ) (c : ℚ) (h : ∀ v ∈ S, chance {a | f a = v} ≤ c) : chance {a | f a ∈ S} ≤ S.card * c := by
  have h1 := chance_exists (α := α) (ι := S) (fun v a => f a = v.1) c fun v => h v.1 v.2
  rw [Fintype.card_coe] at h1
  refine (chance_mono (T := {a | ∃ v : S, f a = v.1}) fun a ha => ⟨⟨f a, ha⟩, rfl⟩).trans h1

/-! ## Secret scalars and nonces -/

theorem card_bytes (n a : ℕ) (hn : a ≤ 8 * n) : (256 : ℕ) ^ n = 2 ^ a * (0 + 2 ^ (8 * n - a)) := by
  rw [zero_add, ← pow_add, Nat.add_sub_cancel' hn, pow_mul]
  norm_num

/-- The secret scalar of random bytes. -/
theorem chance_scalar (n : ℕ) (hn : 57 ≤ n) (S : Finset ℕ) : chance {a : Fin n → Byte | RFC.secretScalar (List.ofFn a) % q ∈ S} ≤ S.card * (1 / 2 ^ 445) := by
  refine chance_values _ S _ fun v _ => ?_
  by_cases he : ∃ a : Fin n → Byte, RFC.secretScalar (List.ofFn a) % q = v
  · obtain ⟨a, rfl⟩ := he
    have e : {b : Fin n → Byte | RFC.secretScalar (List.ofFn b) % q = RFC.secretScalar (List.ofFn a) % q} =
        {b : Fin n → Byte | leNat (List.ofFn b) % 2 ^ 447 / 4 = leNat (List.ofFn a) % 2 ^ 447 / 4} := by
      ext b
      rw [Set.mem_ofPred_eq, Set.mem_ofPred_eq]
      constructor
      · intro h
        have h1 := secretScalar_inj h
        rw [RFC.secretScalar, RFC.secretScalar] at h1
        omega
      · intro h
        rw [RFC.secretScalar, RFC.secretScalar, h]
    have hj : leNat (List.ofFn a) % 2 ^ 447 / 4 < 2 ^ 445 := by
      rw [Nat.div_lt_iff_lt_mul (by norm_num), show (2 : ℕ) ^ 445 * 4 = 2 ^ 447 by norm_num]
      exact Nat.mod_lt _ (by positivity)
    have h1 := ncard_strings n (fun v => v % 2 ^ 447 / 4 = leNat (List.ofFn a) % 2 ^ 447 / 4)
    have h2 := ncard_clamped 0 (2 ^ (8 * n - 447)) _ hj
    simp only [mul_zero, Nat.zero_le, true_and] at h2
    rw [chance, nat_card_bytes, e, h1, card_bytes n 447 (by omega), h2]
    have h0 : (2 : ℚ) ^ (8 * n - 447) ≠ 0 := by positivity
    simp only [Nat.cast_mul, Nat.cast_pow, Nat.cast_ofNat, zero_add]
    rw [show (2 : ℚ) ^ 447 = 4 * 2 ^ 445 by norm_num, mul_right_comm]
    generalize (2 : ℚ) ^ (8 * n - 447) = u at *
    have h3 : (2 : ℚ) ^ 445 ≠ 0 := by positivity
    generalize (2 : ℚ) ^ 445 = w at *
    exact le_of_eq (by field_simp)
  · have e : {b : Fin n → Byte | RFC.secretScalar (List.ofFn b) % q = v} = ∅ := by
      ext b
      exact ⟨fun h => he ⟨b, h⟩, fun h => h.elim⟩
    rw [chance, e, Set.ncard_empty]
    simp

/-- The nonce of a random output. -/
theorem chance_nonce (S : Finset ℕ) : chance {o : Out | outNat o % q ∈ S} ≤ S.card * (1 / q + 1 / 2 ^ 912) := by
  refine chance_values _ S _ fun v _ => ?_
  have hq : (0 : ℚ) < q := by exact_mod_cast q_pos
  by_cases hv : v < q
  · have h1 : Set.ncard {o : Out | outNat o % q = v} ≤ 2 ^ 912 / q + 1 := by
      have := ncard_strings 114 fun x => x % q = v
      rw [show 256 ^ 114 = 2 ^ 912 by norm_num] at this
      refine (le_of_eq this).trans ?_
      rcases ncard_residue (2 ^ 912) q v q_pos hv with h | h <;> omega
    have h2 : (Set.ncard {o : Out | outNat o % q = v} : ℚ) ≤ 2 ^ 912 / q + 1 := le_trans (by exact_mod_cast h1) share_le
    rw [chance, nat_card_out, Nat.cast_pow, Nat.cast_ofNat]
    have hN : (0 : ℚ) < 2 ^ 912 := by positivity
    generalize (2 : ℚ) ^ 912 = N at *
    rw [div_le_iff₀ hN]
    refine h2.trans (le_of_eq ?_)
    field_simp
  · have e : {o : Out | outNat o % q = v} = ∅ := by
      ext o
      exact ⟨fun h => hv (h ▸ Nat.mod_lt _ q_pos), fun h => h.elim⟩
    rw [chance, e, Set.ncard_empty]
    simp only [Nat.cast_zero, zero_div]
    positivity

theorem scalar_take (o : Out) : RFC.secretScalar (List.ofFn (firstHalf o)) = RFC.secretScalar (List.ofFn o) := by
  have e : List.ofFn (firstHalf o) = (List.ofFn o).take 57 := by
    apply List.ext_getElem
    · rw [List.length_ofFn, List.length_take, List.length_ofFn]; rfl
    · intro i h1 h2
      simp only [List.getElem_take, List.getElem_ofFn, firstHalf]
      rfl
  have hm : leNat (List.ofFn o) % 2 ^ 447 = leNat ((List.ofFn o).take 57) % 2 ^ 447 := by
    conv_lhs => rw [← List.take_append_drop 57 (List.ofFn o), leNat_append]
    rw [List.length_take, List.length_ofFn, show 256 ^ min 57 114 = 2 ^ 447 * 2 ^ 9 by norm_num, mul_assoc, Nat.add_mul_mod_self_left]
  rw [e, RFC.secretScalar, RFC.secretScalar, hm]

theorem keyScalar_ordinary {L : ℕ} (k : Fin 57 → Byte) (hk : signBit (keyOf k).1 = 0) (hx : (keyOf k).1 ∈ Short L) (f : Short L → Out) :
    keyScalar (hashOf f) (keyOf k).1 = RFC.secretScalar (List.ofFn (f ⟨(keyOf k).1, hx⟩)) := by
  rw [keyScalar, if_pos hk, ← (halves_hash _ _).1, scalar_take]
  exact congrArg (fun o => RFC.secretScalar (List.ofFn o)) (outOf_hashOf f ⟨(keyOf k).1, hx⟩)

theorem chance_ordinary {L : ℕ} (hL : 57 ≤ L) (P : ℕ → Prop) (c : ℚ) (hc : chance {o : Out | P (RFC.secretScalar (List.ofFn o))} ≤ c) :
    chance {x : ordinaryKeys × (Short L → Out) | P (keyScalar (hashOf x.2) (keyOf x.1.1).1)} ≤ c := by
  have _ : Nonempty ordinaryKeys := keys_nonempty.1.to_subtype
  rw [chance_swap]
  refine chance_prod_le (α := Short L → Out) (β := ordinaryKeys) _ _ fun k => ?_
  have hx : (keyOf k.1).1 ∈ Short L := (le_of_eq (keyOf k.1).2).trans hL
  have hk : signBit (keyOf k.1).1 = 0 := k.2
  refine le_trans (le_of_eq ?_) hc
  rw [← chance_at (⟨(keyOf k.1).1, hx⟩ : Short L) {o : Out | P (RFC.secretScalar (List.ofFn o))}]
  refine chance_congr fun f => ?_
  show P (keyScalar (hashOf f) (keyOf k.1).1) ↔ _
  rw [keyScalar_ordinary k.1 hk hx]
  exact Iff.rfl

theorem chance_direct_scalar {L : ℕ} (P : ℕ → Prop) :
    chance {x : directKeys × (Short L → Out) | P (keyScalar (hashOf x.2) (keyOf x.1.1).1)} = chance {a : Fin 57 → Byte | P (RFC.secretScalar (List.ofFn a))} := by
  rw [chance_swap]
  have h3 := chance_scalars (α := Short L → Out) fun _ s => P s
  rw [← chance_snd (α := Short L → Out) {a : Fin 57 → Byte | P (RFC.secretScalar (List.ofFn a))}]
  refine Eq.trans (chance_congr fun x => ?_) h3
  show P (keyScalar (hashOf x.1) (keyOf x.2.1).1) ↔ P (RFC.secretScalar (List.ofFn x.2.1))
  have h4 : signBit (keyOf x.2.1).1 = 1 := x.2.2
  rw [keyScalar, if_neg (by omega)]
  exact Iff.rfl

/-- The secret scalar for a random private key and a random hash function. -/
theorem chance_keyScalar {L : ℕ} (hL : 57 ≤ L) (S : Finset ℕ) :
    chance {x : (Fin 57 → Byte) × (Short L → Out) | keyScalar (hashOf x.2) (keyOf x.1).1 % q ∈ S} ≤ S.card * (1 / 2 ^ 445) := by
  rw [chance_halves fun x : (Fin 57 → Byte) × (Short L → Out) => keyScalar (hashOf x.2) (keyOf x.1).1 % q ∈ S]
  have h1 := chance_ordinary hL (fun s => s % q ∈ S) _ (chance_scalar 114 (by norm_num) S)
  have h2 := (chance_direct_scalar (L := L) fun s => s % q ∈ S).le.trans (chance_scalar 57 le_rfl S)
  generalize (S.card : ℚ) * (1 / 2 ^ 445) = c at *
  linarith

/-- The nonce for a private key and a message, with a random hash function. -/
theorem chance_keyNonce {L : ℕ} (k : Fin 57 → Byte) (m : List Byte) (hL : 67 + m.length ≤ L) (S : Finset ℕ) :
    chance {f : Short L → Out | RFC.nonce (hashOf f) (keySeed (hashOf f) (keyOf k).1) m % q ∈ S} ≤ S.card * (1 / q + 1 / 2 ^ 912) := by
  refine le_trans (le_of_eq ?_) (chance_nonce S)
  have hd : RFC.dom4.length = 10 := by decide
  by_cases hk : signBit (keyOf k).1 = 0
  · let T : Tree (List Byte) Out := .ask (keyOf k).1 fun o => .ask (RFC.dom4 ++ List.ofFn (secondHalf o) ++ m) fun r => .done (outNat r % q ∈ S)
    have hT : T.Asks (Short L) 2 := by
      refine ⟨?_, 1, rfl, fun o => ⟨?_, 0, rfl, fun r => rfl⟩⟩
      · show (keyOf k).1.length ≤ L
        rw [(keyOf k).2]; omega
      · show (RFC.dom4 ++ List.ofFn (secondHalf o) ++ m).length ≤ L
        simp only [List.length_append, hd, List.length_ofFn]; omega
    rw [chance_tree T hT, ← chance_at (1 : Fin 2) {o : Out | outNat o % q ∈ S}]
    · refine chance_congr fun v => ?_
      have hne : (RFC.dom4 ++ List.ofFn (secondHalf (v 0)) ++ m == (keyOf k).1) = false := by
        rw [beq_eq_false_iff_ne]
        intro e
        have := congrArg List.length e
        rw [(keyOf k).2, List.length_append, List.length_append, hd, List.length_ofFn] at this
        omega
      show T.lazy [] (List.ofFn v) ↔ outNat (v 1) % q ∈ S
      rw [List.ofFn_succ, List.ofFn_succ]
      simp only [T, Tree.lazy, List.lookup_nil, Option.getD_none, List.nil_append, List.lookup_cons, hne]
      exact Iff.rfl
    · intro f
      simp only [T, Tree.run]
      rw [(halves_hash _ _).2, RFC.nonce, keySeed, if_pos hk, outNat_outOf]
  · have hx : (RFC.dom4 ++ leBytes 57 (RFC.secretScalar (keyOf k).1) ++ m).length ≤ L := by
      simp only [List.length_append, hd, leBytes_length]; omega
    rw [← chance_at (⟨_, hx⟩ : Short L) {o : Out | outNat o % q ∈ S}]
    refine chance_congr fun f => ?_
    show RFC.nonce (hashOf f) (keySeed (hashOf f) (keyOf k).1) m % q ∈ S ↔ outNat (f ⟨_, hx⟩) % q ∈ S
    rw [← outOf_hashOf f ⟨_, hx⟩, outNat_outOf, RFC.nonce, keySeed, if_neg hk]

/-! ## The theorem -/

/-- A private key or a message for which an exception has to be made. -/
theorem chance_exceptions {L : ℕ} (ms : List (List Byte)) (hL : ∀ m ∈ ms, 67 + m.length ≤ L) (S : Finset ℕ) (hS : S.card ≤ 129 * 2 ^ 407 + 2 ^ 32) :
    chance {x : (Fin 57 → Byte) × (Short L → Out) | ¬ ∀ m ∈ ms, keyScalar (hashOf x.2) (keyOf x.1).1 % q ∉ S ∧
      RFC.nonce (hashOf x.2) (keySeed (hashOf x.2) (keyOf x.1).1) m % q ∉ S} ≤ 129 * (ms.length + 3) / 2 ^ 39 := by
  by_cases h0 : ms = []
  · subst h0
    have e : {x : (Fin 57 → Byte) × (Short L → Out) | ¬ ∀ m ∈ ([] : List (List Byte)), keyScalar (hashOf x.2) (keyOf x.1).1 % q ∉ S ∧
      RFC.nonce (hashOf x.2) (keySeed (hashOf x.2) (keyOf x.1).1) m % q ∉ S} = ∅ := by
      ext x
      simp
    rw [chance, e, Set.ncard_empty]
    simp only [Nat.cast_zero, zero_div]
    positivity
  obtain ⟨m0, hm0⟩ := List.exists_mem_of_ne_nil _ h0
  have hL0 : 57 ≤ L := by have := hL m0 hm0; omega
  have hq : (2 : ℚ) ^ 446 - 2 ^ 400 ≤ q := by
    have : 2 ^ 446 ≤ q + 2 ^ 400 := by rw [q_def]; decide +kernel
    have h2 : ((2 ^ 446 : ℕ) : ℚ) ≤ ((q + 2 ^ 400 : ℕ) : ℚ) := by exact_mod_cast this
    push_cast at h2
    linarith
  have hSq : (S.card : ℚ) ≤ 129 * 2 ^ 407 + 2 ^ 32 := by exact_mod_cast hS
  have hn : (S.card : ℚ) * (1 / q + 1 / 2 ^ 912) ≤ 129 / 2 ^ 39 + 1 / 2 ^ 70 := by
    have h1 : (1 : ℚ) / q ≤ 1 / (2 ^ 446 - 2 ^ 400) := one_div_le_one_div_of_le (by norm_num) hq
    calc (S.card : ℚ) * (1 / q + 1 / 2 ^ 912) ≤ (129 * 2 ^ 407 + 2 ^ 32) * (1 / (2 ^ 446 - 2 ^ 400) + 1 / 2 ^ 912) := by gcongr
      _ ≤ 129 / 2 ^ 39 + 1 / 2 ^ 70 := by norm_num
  have hk : (S.card : ℚ) * (1 / 2 ^ 445) ≤ 129 / 2 ^ 38 + 1 / 2 ^ 70 := by
    calc (S.card : ℚ) * (1 / 2 ^ 445) ≤ (129 * 2 ^ 407 + 2 ^ 32) * (1 / 2 ^ 445) := by gcongr
      _ ≤ 129 / 2 ^ 38 + 1 / 2 ^ 70 := by norm_num
  by_cases hbig : 2 ^ 32 < ms.length
  · refine (chance_le_one _).trans ?_
    rw [le_div_iff₀ (by positivity)]
    have : ((2 ^ 32 : ℕ) : ℚ) < (ms.length : ℚ) := by exact_mod_cast hbig
    push_cast at this
    linarith
  have hms : (ms.length : ℚ) ≤ 2 ^ 32 := by
    have : ms.length ≤ 2 ^ 32 := by omega
    exact_mod_cast this
  have h1 := chance_keyScalar hL0 S
  have h2 := chance_exists (α := (Fin 57 → Byte) × (Short L → Out)) (ι := Fin ms.length)
    (fun i x => RFC.nonce (hashOf x.2) (keySeed (hashOf x.2) (keyOf x.1).1) (ms.get i) % q ∈ S) (S.card * (1 / q + 1 / 2 ^ 912)) fun i => by
      rw [chance_swap]
      exact chance_prod_le (α := Short L → Out) (β := Fin 57 → Byte) _ _ fun k => chance_keyNonce k _ (hL _ (List.get_mem ms i)) S
  rw [Fintype.card_fin] at h2
  refine (chance_mono (T := {x | keyScalar (hashOf x.2) (keyOf x.1).1 % q ∈ S} ∪
    {x | ∃ i : Fin ms.length, RFC.nonce (hashOf x.2) (keySeed (hashOf x.2) (keyOf x.1).1) (ms.get i) % q ∈ S}) fun x hx => ?_).trans
    ((chance_union _ _).trans ?_)
  · rw [Set.mem_ofPred_eq] at hx
    push Not at hx
    obtain ⟨m, hm, hx⟩ := hx
    by_cases hb : keyScalar (hashOf x.2) (keyOf x.1).1 % q ∈ S
    · exact Or.inl hb
    · obtain ⟨i, rfl⟩ := List.get_of_mem hm
      exact Or.inr ⟨i, hx hb⟩
  · have h3 : (ms.length : ℚ) * (S.card * (1 / q + 1 / 2 ^ 912)) ≤ ms.length * (129 / 2 ^ 39 + 1 / 2 ^ 70) := by gcongr
    have h4 : (ms.length : ℚ) * (1 / 2 ^ 70) ≤ 2 ^ 32 * (1 / 2 ^ 70) := by gcongr
    have h5 : (2 : ℚ) ^ 32 * (1 / 2 ^ 70) + 129 / 2 ^ 38 + 1 / 2 ^ 70 ≤ 129 * 3 / 2 ^ 39 := by norm_num
    rw [mul_add, add_div]
    have h6 : (ms.length : ℚ) * (129 / 2 ^ 39 + 1 / 2 ^ 70) = 129 * ms.length / 2 ^ 39 + ms.length * (1 / 2 ^ 70) := by ring
    linarith

/-- C90. A random private key and a random hash function: with a chance of at least `1 - 129 (n + 3) / 2^39`, the signatures of `n` given messages all verify under the
public key. (`L` bounds the strings that are hashed.) -/
theorem C90_verifies (L : ℕ) (ms : List (List Byte)) (hL : ∀ m ∈ ms, 124 + m.length ≤ L) :
    chance {x : (Fin 57 → Byte) × (Short L → Out) | ¬ ∀ m ∈ ms, ∃ A sig, ed448_derive_public (hashOf x.2) (keyOf x.1) = .ok A ∧
      ed448_sign (hashOf x.2) (keyOf x.1) m = .ok sig ∧ ed448_verify (hashOf x.2) A.1 sig.1 m = .ok (.ok true)} ≤ 129 * (ms.length + 3) / 2 ^ 39 := by
  obtain ⟨S, s1, s2⟩ := C05_exceptions
  refine (chance_imp fun x hx h => hx fun m hm => ?_).trans (chance_exceptions ms (fun m hm => by have := hL m hm; omega) S s1)
  exact s2 _ _ m (h m hm).1 (h m hm).2

/-- C90, for `sign_prehash`: the output verifies under the key that it carries. -/
theorem C90_prehash (L : ℕ) (ms : List (List Byte)) (hL : ∀ m ∈ ms, 124 + m.length ≤ L) :
    chance {x : (Fin 57 → Byte) × (Short L → Out) | ¬ ∀ m ∈ ms, ∃ k sig, SigningKey.from_slice (hashOf x.2) (List.ofFn x.1) = .ok k ∧
      k.sign_prehash (hashOf x.2) m = .ok (.ok sig) ∧
      ed448_verify (hashOf x.2) (sig.as_slice.drop 114) (sig.as_slice.take 114) m = .ok (.ok true)} ≤ 129 * (ms.length + 3) / 2 ^ 39 := by
  obtain ⟨S, s1, s2⟩ := C27_exceptions
  refine (chance_imp fun x hx h => hx fun m hm => ?_).trans (chance_exceptions ms (fun m hm => by have := hL m hm; omega) S s1)
  obtain ⟨A, _, a2, _⟩ := from_slice_spec (xof := hashOf x.2) (List.length_ofFn (f := x.1))
  obtain ⟨sig, b1, b2, _⟩ := s2 (hashOf x.2) _ (.from_slice a2) m (h m hm).1 (h m hm).2
  exact ⟨_, sig, a2, b1, b2⟩

/-- One message: all but one in `2^29`. So for some private key and hash function the signature verifies. -/
example (m : List Byte) : chance {x : (Fin 57 → Byte) × (Short (124 + m.length) → Out) | ∃ A sig, ed448_derive_public (hashOf x.2) (keyOf x.1) = .ok A ∧
    ed448_sign (hashOf x.2) (keyOf x.1) m = .ok sig ∧ ed448_verify (hashOf x.2) A.1 sig.1 m = .ok (.ok true)} ≥ 1 - 1 / 2 ^ 29 := by
  have h1 := C90_verifies (124 + m.length) [m] (by simp)
  simp only [List.mem_singleton, forall_eq, List.length_singleton] at h1
  generalize hP : (fun x : (Fin 57 → Byte) × (Short (124 + m.length) → Out) => ∃ A sig, ed448_derive_public (hashOf x.2) (keyOf x.1) = .ok A ∧
    ed448_sign (hashOf x.2) (keyOf x.1) m = .ok sig ∧ ed448_verify (hashOf x.2) A.1 sig.1 m = .ok (.ok true)) = P
  have e : ∀ x, P x ↔ _ := fun x => iff_of_eq (congrFun hP x).symm
  rw [chance_congr fun x => (not_congr (e x)).symm] at h1
  show chance {x | P x} ≥ _
  have h2 : chance {x | P x} + chance {x | ¬ P x} = 1 := by
    rw [chance, chance, ← add_div, ← Nat.cast_add]
    have h3 := Set.ncard_add_ncard_compl {x | P x}
    have e : {x | P x}ᶜ = {x | ¬ P x} := rfl
    rw [e] at h3
    rw [h3]
    exact div_self (by exact_mod_cast Nat.card_pos.ne')
  have h4 : 129 * ((1 : ℕ) + 3 : ℚ) / 2 ^ 39 ≤ 1 / 2 ^ 29 := by norm_num
  linarith

end Ed448
