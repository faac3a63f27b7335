import Verif.Properties.Rarely

/-!
# C91: nonces and keys do not coincide

Two signatures with the same nonce give away the secret. With a random hash function this does not happen, for one key or for many, except with a tiny chance.
-/

namespace Ed448

set_option exponentiation.threshold 1000

/-! ## Choosing one value again -/

/-- The value of a random function at a place that is found without looking at it. -/
theorem chance_resample {ι β : Type} [DecidableEq ι] [Finite ι] [Finite β] [Nonempty β] (X : (ι → β) → ι) (Q : (ι → β) → β → Prop)
    (hX : ∀ f b, X (Function.update f (X f) b) = X f) (hQ : ∀ f b, Q (Function.update f (X f) b) = Q f) (c : ℚ) (h : ∀ f, chance {b | Q f b} ≤ c) :
    chance {f | Q f (f (X f))} ≤ c := by
  have e : chance {f | Q f (f (X f))} = chance {x : β × (ι → β) | Q x.2 x.1} := by
    rw [← chance_snd (α := β) {f | Q f (f (X f))}]
    let σ : β × (ι → β) → β × (ι → β) := fun x => (x.2 (X x.2), Function.update x.2 (X x.2) x.1)
    have hσ : Function.Involutive σ := by
      rintro ⟨b, f⟩
      show (Function.update f (X f) b (X (Function.update f (X f) b)), Function.update (Function.update f (X f) b) (X (Function.update f (X f) b)) (f (X f))) = (b, f)
      rw [hX, Function.update_self, Function.update_idem, Function.update_eq_self]
    rw [← chance_equiv hσ.toPerm fun x => Q x.2 x.1]
    refine chance_congr fun x => ?_
    show Q x.2 (x.2 (X x.2)) ↔ Q (Function.update x.2 (X x.2) x.1) (x.2 (X x.2))
    rw [hQ]
  rw [e]
  exact chance_prod_le (fun x : β × (ι → β) => Q x.2 x.1) c h

theorem chance_or {α : Type} [Finite α] {P Q R : α → Prop} {c d : ℚ} (hQ : chance {a | Q a} ≤ c) (hR : chance {a | R a} ≤ d) (h : ∀ a, P a → Q a ∨ R a) :
    chance {a | P a} ≤ c + d :=
  (chance_mono (T := {a | Q a} ∪ {a | R a}) h).trans ((chance_union _ _).trans (add_le_add hQ hR))

/-! ## Two nonces -/

/-- The string that is hashed for the nonce. -/
def nonceString (xof : Xof) (k : Fin 57 → Byte) (m : List Byte) : List Byte := RFC.dom4 ++ keySeed xof (keyOf k).1 ++ m

theorem nonceString_length (xof : Xof) (k : Fin 57 → Byte) (m : List Byte) : (nonceString xof k m).length = 67 + m.length := by
  have hd : RFC.dom4.length = 10 := by decide
  rw [nonceString, List.length_append, List.length_append, keySeed_length, hd]

theorem hash_update {L : ℕ} [DecidableEq (Short L)] (f : Short L → Out) (x : Short L) (b : Out) {y : List Byte} (hy : y ≠ x.1) (n : ℕ) :
    RFC.hash (hashOf (Function.update f x b)) y n = RFC.hash (hashOf f) y n := by
  rw [RFC.hash, RFC.hash]
  refine List.map_congr_left fun i _ => ?_
  rw [hashOf, hashOf]
  by_cases h : y.length ≤ L ∧ i < 114
  · rw [dif_pos h, dif_pos h, Function.update_of_ne]
    exact fun e => hy (congrArg Subtype.val e)
  · rw [dif_neg h, dif_neg h]

theorem keySeed_update {L : ℕ} [DecidableEq (Short L)] (f : Short L → Out) (x : Short L) (b : Out) (k : Fin 57 → Byte) (h : (keyOf k).1 ≠ x.1) :
    keySeed (hashOf (Function.update f x b)) (keyOf k).1 = keySeed (hashOf f) (keyOf k).1 := by
  rw [keySeed, keySeed, hash_update f x b h]

theorem nonceString_update {L : ℕ} [DecidableEq (Short L)] (f : Short L → Out) (x : Short L) (b : Out) (k : Fin 57 → Byte) (m : List Byte) (hx : x.1.length ≠ 57) :
    nonceString (hashOf (Function.update f x b)) k m = nonceString (hashOf f) k m := by
  rw [nonceString, nonceString, keySeed_update]
  intro e
  rw [← e, (keyOf k).2] at hx
  exact hx rfl

theorem chance_residue (v : ℕ) : chance {o : Out | outNat o % q = v} ≤ 1 / q + 1 / 2 ^ 912 := by
  have h := chance_nonce {v}
  rw [Finset.card_singleton, Nat.cast_one, one_mul] at h
  exact (chance_imp fun o ho => Finset.mem_singleton.mpr ho).trans h

/-- Values for two different strings of the kind that is hashed for nonces. -/
theorem chance_same_value {L : ℕ} (k k' : Fin 57 → Byte) (m m' : List Byte) (hm : 67 + m.length ≤ L) (hm' : 67 + m'.length ≤ L) (N : Out → ℕ) (c : ℚ)
    (hc : ∀ v, chance {o : Out | N o = v} ≤ c) :
    chance {f : Short L → Out | nonceString (hashOf f) k m ≠ nonceString (hashOf f) k' m' ∧
      N (outOf (hashOf f) (nonceString (hashOf f) k m)) = N (outOf (hashOf f) (nonceString (hashOf f) k' m'))} ≤ c := by
  have hX : ∀ f : Short L → Out, nonceString (hashOf f) k m ∈ Short L := fun f => (le_of_eq (nonceString_length _ _ _)).trans hm
  have hY : ∀ f : Short L → Out, nonceString (hashOf f) k' m' ∈ Short L := fun f => (le_of_eq (nonceString_length _ _ _)).trans hm'
  have hn : ∀ f : Short L → Out, (nonceString (hashOf f) k m).length ≠ 57 := fun f => by rw [nonceString_length]; omega
  have h := chance_resample (fun f => ⟨nonceString (hashOf f) k m, hX f⟩)
    (fun f b => nonceString (hashOf f) k m ≠ nonceString (hashOf f) k' m' ∧ N b = N (f ⟨nonceString (hashOf f) k' m', hY f⟩))
    (fun f b => Subtype.ext (nonceString_update f _ b k m (hn f)))
    (fun f b => ?_) c fun f => ?_
  · refine le_trans (le_of_eq (chance_congr fun f => ?_)) h
    rw [← outOf_hashOf f ⟨nonceString (hashOf f) k m, hX f⟩, ← outOf_hashOf f ⟨nonceString (hashOf f) k' m', hY f⟩]
  · have e1 : nonceString (hashOf (Function.update f ⟨nonceString (hashOf f) k m, hX f⟩ b)) k m = nonceString (hashOf f) k m := nonceString_update f _ b k m (hn f)
    have e2 : nonceString (hashOf (Function.update f ⟨nonceString (hashOf f) k m, hX f⟩ b)) k' m' = nonceString (hashOf f) k' m' := nonceString_update f _ b k' m' (hn f)
    funext b'
    simp only [e1, e2, eq_iff_iff]
    refine and_congr_right fun hne => ?_
    rw [Function.update_of_ne]
    exact fun e => hne (congrArg Subtype.val e).symm
  · exact (chance_imp fun b hb => hb.2).trans (hc _)

/-! ## Two keys -/

theorem chance_one_scalar (n : ℕ) (hn : 57 ≤ n) (v : ℕ) : chance {a : Fin n → Byte | RFC.secretScalar (List.ofFn a) = v} ≤ 1 / 2 ^ 445 := by
  have h := chance_scalar n hn {v % q}
  rw [Finset.card_singleton, Nat.cast_one, one_mul] at h
  refine (chance_imp fun a ha => ?_).trans h
  rw [Finset.mem_singleton, ha]

theorem chance_second (l : List Byte) : chance {o : Out | List.ofFn (secondHalf o) = l} ≤ 1 / 2 ^ 456 := by
  have h1 : Set.ncard {o : Out | List.ofFn (secondHalf o) = l} ≤ Set.ncard (Set.univ : Set (Fin 57 → Byte)) := by
    refine Set.ncard_le_ncard_of_injOn firstHalf (fun _ _ => Set.mem_univ _) ?_ (Set.toFinite _)
    intro o ho o' ho' e
    have e2 : secondHalf o = secondHalf o' := List.ofFn_injective (Eq.trans ho (Eq.symm ho'))
    rw [← keyHash_halves o, ← keyHash_halves o', e, e2]
  rw [Set.ncard_univ, nat_card_bytes, show 256 ^ 57 = 2 ^ 456 by norm_num] at h1
  have h2 : (Set.ncard {o : Out | List.ofFn (secondHalf o) = l} : ℚ) ≤ 2 ^ 456 := by
    have : (Set.ncard {o : Out | List.ofFn (secondHalf o) = l} : ℚ) ≤ ((2 ^ 456 : ℕ) : ℚ) := Nat.cast_le.mpr h1
    rwa [Nat.cast_pow, Nat.cast_ofNat] at this
  rw [chance, nat_card_out, Nat.cast_pow, Nat.cast_ofNat, div_le_iff₀ (by positivity)]
  refine h2.trans (le_of_eq ?_)
  norm_num

/-- What is derived from a private key without the sign bit and from another private key. -/
theorem chance_derived {L : ℕ} (hL : 57 ≤ L) {γ : Type} (G : Xof → List Byte → γ) (g : Out → γ) (k k' : Fin 57 → Byte) (hk : k ≠ k')
    (hG : ∀ f : Short L → Out, G (hashOf f) (keyOf k).1 = g (outOf (hashOf f) (keyOf k).1))
    (hG' : ∀ (f : Short L → Out) (x : Short L) (b : Out), (keyOf k').1 ≠ x.1 → G (hashOf (Function.update f x b)) (keyOf k').1 = G (hashOf f) (keyOf k').1)
    (c : ℚ) (hc : ∀ v, chance {o : Out | g o = v} ≤ c) :
    chance {f : Short L → Out | G (hashOf f) (keyOf k).1 = G (hashOf f) (keyOf k').1} ≤ c := by
  have hx : (keyOf k).1 ∈ Short L := (le_of_eq (keyOf k).2).trans hL
  have hne : (keyOf k').1 ≠ (keyOf k).1 := fun e => hk (List.ofFn_injective e).symm
  have h := chance_resample (fun _ : Short L → Out => (⟨(keyOf k).1, hx⟩ : Short L)) (fun f b => g b = G (hashOf f) (keyOf k').1) (fun _ _ => rfl)
    (fun f b => ?_) c fun f => hc _
  · refine le_trans (le_of_eq (chance_congr fun f => ?_)) h
    rw [hG, ← outOf_hashOf f ⟨(keyOf k).1, hx⟩]
  · funext b'
    rw [hG' f _ b hne]

theorem keyScalar_update {L : ℕ} (f : Short L → Out) (x : Short L) (b : Out) (k : Fin 57 → Byte) (h : (keyOf k).1 ≠ x.1) :
    keyScalar (hashOf (Function.update f x b)) (keyOf k).1 = keyScalar (hashOf f) (keyOf k).1 := by
  rw [keyScalar, keyScalar, hash_update f x b h]

theorem chance_seeds {L : ℕ} (hL : 57 ≤ L) (k k' : Fin 57 → Byte) (hk : k ≠ k') (h0 : signBit (keyOf k).1 = 0) :
    chance {f : Short L → Out | keySeed (hashOf f) (keyOf k).1 = keySeed (hashOf f) (keyOf k').1} ≤ 1 / 2 ^ 456 :=
  chance_derived hL keySeed (fun o => List.ofFn (secondHalf o)) k k' hk (fun f => by rw [keySeed, if_pos h0, (halves_hash _ _).2])
    (fun f x b h => keySeed_update f x b k' h) _ chance_second

theorem chance_scalars' {L : ℕ} (hL : 57 ≤ L) (k k' : Fin 57 → Byte) (hk : k ≠ k') (h0 : signBit (keyOf k).1 = 0) :
    chance {f : Short L → Out | keyScalar (hashOf f) (keyOf k).1 = keyScalar (hashOf f) (keyOf k').1} ≤ 1 / 2 ^ 445 :=
  chance_derived hL keyScalar (fun o => RFC.secretScalar (List.ofFn o)) k k' hk (fun f => by rw [keyScalar, if_pos h0, ← (halves_hash _ _).1, scalar_take])
    (fun f x b h => keyScalar_update f x b k' h) _ (chance_one_scalar 114 (by norm_num))

/-- Something derived from two of many random private keys. It is the same for equal keys, and for keys with the sign bit it determines the scalar. -/
theorem chance_two {L N : ℕ} {γ : Type} (G : Xof → List Byte → γ) (i j : Fin N) (hij : i ≠ j) (c : ℚ) (hc : 0 ≤ c)
    (hd : ∀ (xof : Xof) (k k' : Fin 57 → Byte), signBit (keyOf k).1 ≠ 0 → signBit (keyOf k').1 ≠ 0 → G xof (keyOf k).1 = G xof (keyOf k').1 →
      RFC.secretScalar (List.ofFn k) = RFC.secretScalar (List.ofFn k'))
    (hG : ∀ k k' : Fin 57 → Byte, k ≠ k' → signBit (keyOf k).1 = 0 → chance {f : Short L → Out | G (hashOf f) (keyOf k).1 = G (hashOf f) (keyOf k').1} ≤ c) :
    chance {x : (Fin N → Fin 57 → Byte) × (Short L → Out) | G (hashOf x.2) (keyOf (x.1 i)).1 = G (hashOf x.2) (keyOf (x.1 j)).1} ≤ 1 / 2 ^ 445 + (c + c) := by
  have h1 : chance {x : (Fin N → Fin 57 → Byte) × (Short L → Out) | RFC.secretScalar (List.ofFn (x.1 i)) = RFC.secretScalar (List.ofFn (x.1 j))} ≤ 1 / 2 ^ 445 := by
    refine chance_prod_le (α := Fin N → Fin 57 → Byte) (β := Short L → Out) _ _ fun f => ?_
    exact chance_resample (fun _ : Fin N → Fin 57 → Byte => i) (fun ks b => RFC.secretScalar (List.ofFn b) = RFC.secretScalar (List.ofFn (ks j))) (fun _ _ => rfl)
      (fun ks b => by rw [Function.update_of_ne (Ne.symm hij)]) _ fun ks => chance_one_scalar 57 le_rfl _
  have hG0 : ∀ k k' : Fin 57 → Byte, chance {f : Short L → Out | (k ≠ k' ∧ signBit (keyOf k).1 = 0) ∧ G (hashOf f) (keyOf k).1 = G (hashOf f) (keyOf k').1} ≤ c := by
    intro k k'
    by_cases h : k ≠ k' ∧ signBit (keyOf k).1 = 0
    · exact (chance_imp fun f hf => hf.2).trans (hG k k' h.1 h.2)
    · have e : {f : Short L → Out | (k ≠ k' ∧ signBit (keyOf k).1 = 0) ∧ G (hashOf f) (keyOf k).1 = G (hashOf f) (keyOf k').1} = ∅ := by
        ext f
        exact ⟨fun hf => h hf.1, fun hf => hf.elim⟩
      rw [chance, e, Set.ncard_empty, Nat.cast_zero, zero_div]
      exact hc
  have h2 : ∀ a b : Fin N, chance {x : (Fin N → Fin 57 → Byte) × (Short L → Out) | (x.1 a ≠ x.1 b ∧ signBit (keyOf (x.1 a)).1 = 0) ∧
      G (hashOf x.2) (keyOf (x.1 a)).1 = G (hashOf x.2) (keyOf (x.1 b)).1} ≤ c := by
    intro a b
    rw [chance_swap]
    exact chance_prod_le (α := Short L → Out) (β := Fin N → Fin 57 → Byte) _ _ fun ks => hG0 (ks a) (ks b)
  refine chance_or h1 (chance_or (P := fun x => _ ∨ _) (h2 i j) (h2 j i) fun _ h => h) fun x hx => ?_
  by_cases he : x.1 i = x.1 j
  · left
    show RFC.secretScalar (List.ofFn (x.1 i)) = RFC.secretScalar (List.ofFn (x.1 j))
    rw [he]
  by_cases hi : signBit (keyOf (x.1 i)).1 = 0
  · exact Or.inr (Or.inl ⟨⟨he, hi⟩, hx⟩)
  by_cases hj : signBit (keyOf (x.1 j)).1 = 0
  · exact Or.inr (Or.inr ⟨⟨Ne.symm he, hj⟩, Eq.symm hx⟩)
  exact Or.inl (hd _ _ _ hi hj hx)

/-! ## The library -/

/-- The signatures of two messages, with two private keys, start with the same 57 bytes: they are made with the same nonce. -/
def SameStart (xof : Xof) (k : Arr Byte 57) (m : List Byte) (k' : Arr Byte 57) (m' : List Byte) : Prop :=
  ∃ s s', ed448_sign xof k m = .ok s ∧ ed448_sign xof k' m' = .ok s' ∧ s.1.take 57 = s'.1.take 57

theorem sameStart_nonce {xof : Xof} {k k' : Arr Byte 57} {m m' : List Byte} (h : SameStart xof k m k' m') :
    RFC.nonce xof (keySeed xof k.1) m % q = RFC.nonce xof (keySeed xof k'.1) m' % q := by
  obtain ⟨s, s', h1, h2, h3⟩ := h
  obtain ⟨t, a1, a2⟩ := sign_spec xof k m
  obtain ⟨t', b1, b2⟩ := sign_spec xof k' m'
  obtain rfl := Except.ok.inj (h1.symm.trans a1)
  obtain rfl := Except.ok.inj (h2.symm.trans b1)
  rw [a2, b2, (sign_eq_parts _ _ _ _).1, (sign_eq_parts _ _ _ _).1] at h3
  exact smul_B_inj.mp (encodePoint_inj.mp h3)

theorem residue_bound : (1 : ℚ) / q + 1 / 2 ^ 912 ≤ 1 / 2 ^ 445 := by
  have : 2 ^ 445 + 2 ^ 444 ≤ q := by rw [q_def]; decide +kernel
  have h2 : ((2 ^ 445 + 2 ^ 444 : ℕ) : ℚ) ≤ (q : ℚ) := Nat.cast_le.mpr this
  have h3 : (1 : ℚ) / q ≤ 1 / ((2 ^ 445 + 2 ^ 444 : ℕ) : ℚ) := one_div_le_one_div_of_le (by norm_num) h2
  refine (add_le_add_left h3 _).trans ?_
  norm_num

theorem chance_nonces {L : ℕ} (k k' : Fin 57 → Byte) (m m' : List Byte) (hm : 67 + m.length ≤ L) (hm' : 67 + m'.length ≤ L) :
    chance {f : Short L → Out | nonceString (hashOf f) k m ≠ nonceString (hashOf f) k' m' ∧ SameStart (hashOf f) (keyOf k) m (keyOf k') m'} ≤ 1 / 2 ^ 445 := by
  refine (chance_imp fun f hf => ⟨hf.1, ?_⟩).trans ((chance_same_value k k' m m' hm hm' (fun o => outNat o % q) _ chance_residue).trans residue_bound)
  have := sameStart_nonce hf.2
  rw [outNat_outOf, outNat_outOf]
  exact this

/-- C91. For every private key: the signatures of different messages are made with different nonces, except with a chance of at most `n^2 / 2^445` for `n` messages
and a random hash function. -/
theorem C91_one_key (L : ℕ) (k : Fin 57 → Byte) (ms : List (List Byte)) (hL : ∀ m ∈ ms, 124 + m.length ≤ L) :
    chance {f : Short L → Out | ∃ m ∈ ms, ∃ m' ∈ ms, m ≠ m' ∧ SameStart (hashOf f) (keyOf k) m (keyOf k) m'} ≤ ms.length ^ 2 / 2 ^ 445 := by
  have h := chance_exists (α := Short L → Out) (ι := Fin ms.length × Fin ms.length) (fun i f => ms.get i.1 ≠ ms.get i.2 ∧
    SameStart (hashOf f) (keyOf k) (ms.get i.1) (keyOf k) (ms.get i.2)) (1 / 2 ^ 445) fun i => ?_
  · refine (chance_imp fun f hf => ?_).trans (h.trans (le_of_eq ?_))
    · obtain ⟨m, hm, m', hm', hne, hs⟩ := hf
      obtain ⟨i, rfl⟩ := List.get_of_mem hm
      obtain ⟨j, rfl⟩ := List.get_of_mem hm'
      exact ⟨(i, j), hne, hs⟩
    · rw [Fintype.card_prod, Fintype.card_fin, Nat.cast_mul]
      ring
  · have h1 := hL _ (List.get_mem ms i.1)
    have h2 := hL _ (List.get_mem ms i.2)
    refine (chance_imp fun f hf => ⟨fun e => hf.1 (List.append_cancel_left e), hf.2⟩).trans (chance_nonces k k (ms.get i.1) (ms.get i.2) (by omega) (by omega))

/-- C91. Many random private keys, each used for the same messages: no two signatures are made with the same nonce. -/
theorem C91_many_keys (L N : ℕ) (ms : List (List Byte)) (hL : ∀ m ∈ ms, 124 + m.length ≤ L) :
    chance {x : (Fin N → Fin 57 → Byte) × (Short L → Out) | ∃ i j, ∃ m ∈ ms, ∃ m' ∈ ms, (i ≠ j ∨ m ≠ m') ∧
      SameStart (hashOf x.2) (keyOf (x.1 i)) m (keyOf (x.1 j)) m'} ≤ (N * ms.length) ^ 2 / 2 ^ 443 := by
  have h := chance_exists (α := (Fin N → Fin 57 → Byte) × (Short L → Out)) (ι := (Fin N × Fin ms.length) × (Fin N × Fin ms.length))
    (fun a x => (a.1.1 ≠ a.2.1 ∨ ms.get a.1.2 ≠ ms.get a.2.2) ∧
      SameStart (hashOf x.2) (keyOf (x.1 a.1.1)) (ms.get a.1.2) (keyOf (x.1 a.2.1)) (ms.get a.2.2)) (1 / 2 ^ 443) fun a => ?_
  · refine (chance_imp fun x hx => ?_).trans (h.trans (le_of_eq ?_))
    · obtain ⟨i, j, m, hm, m', hm', hne, hs⟩ := hx
      obtain ⟨u, rfl⟩ := List.get_of_mem hm
      obtain ⟨v, rfl⟩ := List.get_of_mem hm'
      exact ⟨((i, u), (j, v)), hne, hs⟩
    · simp only [Fintype.card_prod, Fintype.card_fin, Nat.cast_mul]
      ring
  · obtain ⟨⟨i, u⟩, ⟨j, v⟩⟩ := a
    have h1 := hL _ (List.get_mem ms u)
    have h2 := hL _ (List.get_mem ms v)
    simp only
    generalize ms.get u = m at *
    generalize ms.get v = m' at *
    have hn : chance {x : (Fin N → Fin 57 → Byte) × (Short L → Out) | nonceString (hashOf x.2) (x.1 i) m ≠ nonceString (hashOf x.2) (x.1 j) m' ∧
        SameStart (hashOf x.2) (keyOf (x.1 i)) m (keyOf (x.1 j)) m'} ≤ 1 / 2 ^ 445 := by
      rw [chance_swap]
      exact chance_prod_le (α := Short L → Out) (β := Fin N → Fin 57 → Byte) _ _ fun ks => chance_nonces (ks i) (ks j) m m' (by omega) (by omega)
    by_cases hij : i = j
    · subst hij
      refine (chance_imp fun x hx => ⟨fun e => ?_, hx.2⟩).trans (hn.trans (by norm_num))
      exact (hx.1.resolve_left fun h => h rfl) (List.append_cancel_left e)
    · have hs := chance_two (L := L) keySeed i j hij (1 / 2 ^ 456) (by positivity) (fun xof k k' hk hk' e => ?_) fun k k' hk h0 => chance_seeds (by omega) k k' hk h0
      · refine (chance_or hs hn fun x hx => ?_).trans (by norm_num)
        by_cases he : keySeed (hashOf x.2) (keyOf (x.1 i)).1 = keySeed (hashOf x.2) (keyOf (x.1 j)).1
        · exact Or.inl he
        · refine Or.inr ⟨fun e => he ?_, hx.2⟩
          have e2 := (List.append_inj e (by simp only [List.length_append, keySeed_length])).1
          exact List.append_cancel_left e2
      · rw [keySeed, keySeed, if_neg hk, if_neg hk'] at e
        have e2 := congrArg leNat e
        rw [leNat_leBytes, leNat_leBytes, Nat.mod_eq_of_lt (secretScalar_lt _), Nat.mod_eq_of_lt (secretScalar_lt _)] at e2
        exact e2

/-- C91. The public keys of random private keys differ. -/
theorem C91_keys (L N : ℕ) (hL : 57 ≤ L) :
    chance {x : (Fin N → Fin 57 → Byte) × (Short L → Out) | ∃ i j, i ≠ j ∧
      ed448_derive_public (hashOf x.2) (keyOf (x.1 i)) = ed448_derive_public (hashOf x.2) (keyOf (x.1 j))} ≤ N ^ 2 / 2 ^ 443 := by
  have h := chance_exists (α := (Fin N → Fin 57 → Byte) × (Short L → Out)) (ι := Fin N × Fin N)
    (fun a x => a.1 ≠ a.2 ∧ ed448_derive_public (hashOf x.2) (keyOf (x.1 a.1)) = ed448_derive_public (hashOf x.2) (keyOf (x.1 a.2))) (1 / 2 ^ 443) fun a => ?_
  · refine (chance_imp fun x hx => ?_).trans (h.trans (le_of_eq ?_))
    · obtain ⟨i, j, hx⟩ := hx
      exact ⟨(i, j), hx⟩
    · rw [Fintype.card_prod, Fintype.card_fin, Nat.cast_mul]
      ring
  · obtain ⟨i, j⟩ := a
    simp only
    by_cases hij : i = j
    · have e : {x : (Fin N → Fin 57 → Byte) × (Short L → Out) | i ≠ j ∧
          ed448_derive_public (hashOf x.2) (keyOf (x.1 i)) = ed448_derive_public (hashOf x.2) (keyOf (x.1 j))} = ∅ := by
        ext x
        exact ⟨fun h => h.1 hij, fun h => h.elim⟩
      rw [chance, e, Set.ncard_empty, Nat.cast_zero, zero_div]
      positivity
    · have hs := chance_two (L := L) keyScalar i j hij (1 / 2 ^ 445) (by positivity) (fun xof k k' hk hk' e => ?_) fun k k' hk h0 => chance_scalars' hL k k' hk h0
      · refine (chance_imp fun x hx => ?_).trans (hs.trans (by norm_num))
        obtain ⟨A, a1, a2⟩ := derive_spec (hashOf x.2) (keyOf (x.1 i))
        obtain ⟨A', b1, b2⟩ := derive_spec (hashOf x.2) (keyOf (x.1 j))
        have e := hx.2
        rw [a1, b1] at e
        obtain rfl := Except.ok.inj e
        have e2 := smul_B_inj.mp (encodePoint_inj.mp (a2.symm.trans b2))
        rw [keyScalar, keyScalar] at e2 ⊢
        split at e2 <;> split at e2 <;> simp only [*, if_true, if_false] <;> exact secretScalar_inj e2
      · rw [keyScalar, keyScalar, if_neg hk, if_neg hk'] at e
        exact e

/-- With a bad hash function all signatures are made with the same nonce. -/
example (k k' : Arr Byte 57) (m m' : List Byte) : SameStart (fun _ _ => 0) k m k' m' := by
  obtain ⟨s, a1, a2⟩ := sign_spec (fun _ _ => 0) k m
  obtain ⟨s', b1, b2⟩ := sign_spec (fun _ _ => 0) k' m'
  refine ⟨s, s', a1, b1, ?_⟩
  rw [a2, b2, (sign_eq_parts _ _ _ _).1, (sign_eq_parts _ _ _ _).1]
  simp only [RFC.nonce, RFC.hash]

/-- A billion keys, each used for a billion messages. -/
example (L N : ℕ) (ms : List (List Byte)) (hN : N = 2 ^ 30) (hn : ms.length = 2 ^ 30) (hL : ∀ m ∈ ms, 124 + m.length ≤ L) :
    chance {x : (Fin N → Fin 57 → Byte) × (Short L → Out) | ∃ i j, ∃ m ∈ ms, ∃ m' ∈ ms, (i ≠ j ∨ m ≠ m') ∧
      SameStart (hashOf x.2) (keyOf (x.1 i)) m (keyOf (x.1 j)) m'} ≤ 1 / 2 ^ 323 := by
  refine (C91_many_keys L N ms hL).trans (le_of_eq ?_)
  rw [hn, hN]
  norm_num

end Ed448
