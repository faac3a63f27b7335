import Verif.Properties.ChosenMessage

/-!
# C86: the game with all values of the hash function, and the library
-/

namespace Ed448

set_option exponentiation.threshold 1000

/-! ## Strings that only the signer hashes -/

/-- The private key, and the strings hashed for nonces. -/
def Secret (k seed : List Byte) (x : List Byte) : Prop := x = k ∨ RFC.dom4 ++ seed <+: x

/-- The string for which a value of the hash function is used in the next round (apart from that for the nonce), or an empty string. -/
noncomputable def asked (F : Forger) (s r : ℕ) (g : Game) : List Byte :=
  match F.next g.seen with
  | .hash x => x
  | .sign m => if g.signed.lookup m = none then RFC.dom4 ++ encodePoint (r • B) ++ RFC.publicOf s ++ m else []

theorem lookup_other {t : Table} {x y : List Byte} {o : Out} (h : x ≠ y) : (t ++ [(y, o)]).lookup x = t.lookup x := by
  rw [List.lookup_append, List.lookup_cons, beq_eq_false_iff_ne.mpr h]
  simp

theorem nonce_ne {k seed x : List Byte} (hx : ¬ Secret k seed x) (m : List Byte) : RFC.dom4 ++ seed ++ m ≠ x := by
  rintro rfl
  exact hx (Or.inr (List.prefix_append _ _))

/-- As long as no secret string is asked for, the game with all values of the hash function is that with nonces from a tape. -/
theorem full_eq (F : Forger) (k : List Byte) (o : Out) (s : ℕ) (seed : List Byte) (hk : k.length = 57) (hs : seed.length = 57) (h r : ℕ → Out) : ∀ n,
    (∀ i < n, ¬ Secret k seed (asked F s (outNat (r i)) (play F (fun i => realSigner s (outNat (r i))) h i))) →
    let g := fullPlay F k o s seed h r n
    let g' := play F (fun i => realSigner s (outNat (r i))) h n
    g.signed = g'.signed ∧ g.seen = g'.seen ∧ (∀ x, ¬ Secret k seed x → g.table.lookup x = g'.table.lookup x) ∧
      ∀ m, g'.signed.lookup m = none → g.table.lookup (RFC.dom4 ++ seed ++ m) = none
  | 0, _ => by
    refine ⟨rfl, rfl, fun x hx => ?_, fun m _ => ?_⟩
    · show List.lookup x [(k, o)] = none
      rw [List.lookup_cons, beq_eq_false_iff_ne.mpr fun e => hx (Or.inl e)]
      rfl
    · show List.lookup _ [(k, o)] = none
      have : RFC.dom4 ++ seed ++ m ≠ k := by
        intro e
        have := congrArg List.length e
        have hd : RFC.dom4.length = 10 := by decide
        rw [List.length_append, List.length_append, hs, hk, hd] at this
        omega
      rw [List.lookup_cons, beq_eq_false_iff_ne.mpr this]
      rfl
  | n + 1, hn => by
    have ih := full_eq F k o s seed hk hs h r n fun i hi => hn i (by omega)
    have hq := hn n (by omega)
    simp only at ih ⊢
    rw [fullPlay, play]
    generalize fullPlay F k o s seed h r n = g at *
    generalize play F (fun i => realSigner s (outNat (r i))) h n = g' at *
    obtain ⟨h1, h2, h3, h4⟩ := ih
    rw [Game.fullRound, Game.round, h1, h2]
    rw [asked] at hq
    cases hreq : F.next g'.seen with
    | hash x =>
      rw [hreq] at hq
      simp only at hq
      have hv : value g.table x (h n) = value g'.table x (h n) := by rw [value, value, h3 x hq]
      simp only [hv, true_and]
      refine ⟨fun y hy => ?_, fun m hm => ?_⟩
      · rw [List.lookup_append, List.lookup_append, h3 y hy]
      · rw [lookup_other (nonce_ne hq m)]
        exact h4 m hm
    | sign m =>
      rw [hreq] at hq
      simp only at hq ⊢
      cases hl : g'.signed.lookup m with
      | some sig => exact ⟨rfl, rfl, h3, h4⟩
      | none =>
        rw [if_pos hl] at hq
        have e1 : value g.table (RFC.dom4 ++ seed ++ m) (r n) = r n := value_none (h4 m hl) _
        have hne : RFC.dom4 ++ encodePoint (outNat (r n) • B) ++ RFC.publicOf s ++ m ≠ RFC.dom4 ++ seed ++ m := (nonce_ne hq m).symm
        have e2 : value (g.table ++ [(RFC.dom4 ++ seed ++ m, r n)]) (RFC.dom4 ++ encodePoint (outNat (r n) • B) ++ RFC.publicOf s ++ m) (h n) =
            value g'.table (RFC.dom4 ++ encodePoint (outNat (r n) • B) ++ RFC.publicOf s ++ m) (h n) := by
          rw [value, value, lookup_other hne, h3 _ hq]
        simp only [e1, realSigner, e2, true_and]
        refine ⟨fun y hy => ?_, fun m' hm' => ?_⟩
        · have hy' : y ≠ RFC.dom4 ++ seed ++ m := (nonce_ne hy m).symm
          rw [List.lookup_append, lookup_other hy', List.lookup_append, h3 y hy]
        · rw [List.lookup_append, Option.or_eq_none_iff] at hm'
          have hmm : m' ≠ m := by
            rintro rfl
            simp at hm'
          rw [lookup_other (nonce_ne hq m'), lookup_other (fun e => hmm (List.append_cancel_left e))]
          exact h4 m' hm'.1

/-! ## Chances -/

section Chance

variable {α β : Type} [Finite α] [Finite β]

theorem chance_mono {S T : Set α} (h : S ⊆ T) : chance S ≤ chance T :=
  div_le_div_of_nonneg_right (by exact_mod_cast Set.ncard_le_ncard h (Set.toFinite _)) (Nat.cast_nonneg _)

omit [Finite α] in
theorem chance_union (S T : Set α) : chance (S ∪ T) ≤ chance S + chance T := by
  rw [chance, chance, chance, ← add_div]
  exact div_le_div_of_nonneg_right (by exact_mod_cast Set.ncard_union_le S T) (Nat.cast_nonneg _)

omit [Finite α] in
theorem chance_nonneg (S : Set α) : 0 ≤ chance S := div_nonneg (Nat.cast_nonneg _) (Nat.cast_nonneg _)

theorem chance_le_one (S : Set α) : chance S ≤ 1 := by
  refine div_le_one_of_le₀ ?_ (Nat.cast_nonneg _)
  rw [← Set.ncard_univ]
  exact_mod_cast Set.ncard_le_ncard (Set.subset_univ S) (Set.toFinite _)

omit [Finite α] in
theorem chance_exists {ι : Type} [Fintype ι] (P : ι → α → Prop) (c : ℚ) (h : ∀ i, chance {a | P i a} ≤ c) :
    chance {a | ∃ i, P i a} ≤ Fintype.card ι * c := by
  have e : {a | ∃ i, P i a} = ⋃ i, {a | P i a} := by ext a; simp
  have h1 : ((⋃ i, {a | P i a}).ncard : ℚ) ≤ ∑ i, ({a | P i a}.ncard : ℚ) := by
    exact_mod_cast Set.ncard_iUnion_le_of_fintype fun i => {a | P i a}
  calc chance {a | ∃ i, P i a} ≤ (∑ i, ({a | P i a}.ncard : ℚ)) / Nat.card α := by
        rw [chance, e]; exact div_le_div_of_nonneg_right h1 (Nat.cast_nonneg _)
    _ = ∑ i, chance {a | P i a} := by rw [Finset.sum_div]; rfl
    _ ≤ Fintype.card ι * c := by
        refine (Finset.sum_le_card_nsmul _ _ c fun i _ => h i).trans (le_of_eq ?_)
        rw [nsmul_eq_mul, Finset.card_univ]

/-- What holds with a chance of at most `c` for each `b` does so for random `b`. -/
theorem chance_prod_le [Nonempty β] (P : α × β → Prop) (c : ℚ) (h : ∀ b, chance {a | P (a, b)} ≤ c) : chance {x | P x} ≤ c := by
  have _ : Fintype α := Fintype.ofFinite α
  have _ : Fintype β := Fintype.ofFinite β
  rcases isEmpty_or_nonempty α with hα | hα
  · have hc := (chance_nonneg _).trans (h (Classical.arbitrary β))
    refine le_trans (le_of_eq ?_) hc
    rw [chance, Nat.card_prod, Nat.card_of_isEmpty, zero_mul, Nat.cast_zero, div_zero]
  · have ha : (0 : ℚ) < Nat.card α := by exact_mod_cast Nat.card_pos
    have hb : (0 : ℚ) < Nat.card β := by exact_mod_cast Nat.card_pos
    rw [chance, ncard_prod_right, div_le_iff₀ (by rw [Nat.card_prod]; push_cast; positivity), Nat.card_prod]
    push_cast
    have : ∀ b ∈ (Finset.univ : Finset β), (({a | P (a, b)}.ncard : ℕ) : ℚ) ≤ c * Nat.card α := fun b _ => by
      have := h b
      rwa [chance, div_le_iff₀ ha] at this
    refine (Finset.sum_le_card_nsmul _ _ _ this).trans (le_of_eq ?_)
    rw [nsmul_eq_mul, Finset.card_univ, ← Nat.card_eq_fintype_card]
    ring

omit [Finite β] in
theorem chance_snd [Nonempty α] [Nonempty β] (S : Set β) : chance {x : α × β | x.2 ∈ S} = chance S := by
  have e : {x : α × β | x.2 ∈ S} = Set.univ ×ˢ S := by ext x; simp
  have ha : (Nat.card α : ℚ) ≠ 0 := by exact_mod_cast Nat.card_pos.ne'
  rw [chance, chance, e, Set.ncard_prod, Set.ncard_univ, Nat.card_prod]
  push_cast
  rw [mul_div_mul_left _ _ ha]

theorem chance_eq_le [Nonempty α] (S : Set α) (h : ∀ x ∈ S, ∀ y ∈ S, x = y) : chance S ≤ 1 / Nat.card α := by
  refine div_le_div_of_nonneg_right ?_ (Nat.cast_nonneg _)
  have := (Set.ncard_le_one (Set.toFinite S)).mpr h
  exact_mod_cast this

/-- What happens with a chance of at most `c` may be excluded. -/
theorem chance_split [Nonempty α] [Nonempty β] (full : Set (α × β)) (real : Set β) (guess : α → β → Prop) (c : ℚ)
    (h : ∀ a b, (a, b) ∈ full → b ∈ real ∨ guess a b) (hg : ∀ b, chance {a | guess a b} ≤ c) : chance full ≤ chance real + c := by
  have h1 : full ⊆ {x : α × β | x.2 ∈ real} ∪ {x : α × β | guess x.1 x.2} := fun x hx => h x.1 x.2 hx
  refine (chance_mono h1).trans ((chance_union _ _).trans (add_le_add (le_of_eq (chance_snd real)) ?_))
  exact chance_prod_le (fun x : α × β => guess x.1 x.2) c hg

end Chance

instance : Finite Byte := Finite.of_injective _ BitVec.toFin_injective

theorem nat_card_bytes (n : ℕ) : Nat.card (Fin n → Byte) = 256 ^ n := by
  have h1 := ncard_strings n fun _ => True
  simp only [and_true] at h1
  rw [← Set.ncard_univ, show (Set.univ : Set (Fin n → Byte)) = {h : Fin n → Byte | True} by ext; simp, h1,
    show {v : ℕ | v < 256 ^ n} = ((Finset.range (256 ^ n) : Finset ℕ) : Set ℕ) by ext v; simp, Set.ncard_coe_finset, Finset.card_range]

theorem nat_card_out : Nat.card Out = 2 ^ 912 := by
  rw [nat_card_bytes]
  norm_num

theorem nat_card_tape (n : ℕ) : Nat.card (Fin n → Out) = (2 ^ 912) ^ n := by
  rw [Nat.card_fun, nat_card_out, Nat.card_fin]

/-! ## The three steps -/

/-- A given string is a secret one with a small chance. -/
theorem secret_chance (K : Set (Fin 57 → Byte)) (hK : K.Nonempty) (y : List Byte) :
    chance {x : K × (Fin 57 → Byte) | Secret (List.ofFn x.1.1) (List.ofFn x.2) y} ≤ 1 / Nat.card K + 1 / 2 ^ 456 := by
  have _ : Nonempty K := hK.to_subtype
  have e : {x : K × (Fin 57 → Byte) | Secret (List.ofFn x.1.1) (List.ofFn x.2) y} = {x | y = List.ofFn x.1.1} ∪ {x | RFC.dom4 ++ List.ofFn x.2 <+: y} := rfl
  rw [e]
  refine (chance_union _ _).trans (add_le_add ?_ ?_)
  · refine chance_prod_le (fun x : K × (Fin 57 → Byte) => y = List.ofFn x.1.1) _ fun b => chance_eq_le _ ?_
    rintro x hx x' hx'
    have : List.ofFn x.1 = List.ofFn x'.1 := (show y = List.ofFn x.1 from hx).symm.trans hx'
    exact Subtype.ext (List.ofFn_injective this)
  · have h1 : chance {b : Fin 57 → Byte | RFC.dom4 ++ List.ofFn b <+: y} ≤ 1 / 2 ^ 456 := by
      refine (chance_eq_le _ ?_).trans (le_of_eq ?_)
      · rintro x hx x' hx'
        have h2 : RFC.dom4 ++ List.ofFn x <+: RFC.dom4 ++ List.ofFn x' :=
          List.prefix_of_prefix_length_le hx hx' (by rw [List.length_append, List.length_append, List.length_ofFn, List.length_ofFn])
        have h3 := h2.eq_of_length (by rw [List.length_append, List.length_append, List.length_ofFn, List.length_ofFn])
        exact List.ofFn_injective (List.append_cancel_left h3)
      · rw [nat_card_bytes]
        norm_num
    exact (le_of_eq (chance_snd {b : Fin 57 → Byte | RFC.dom4 ++ List.ofFn b <+: y})).trans h1

theorem challenge_won (shake : Xof) (t : Table) (pk m sig : List Byte) (f : Out) :
    RFC.challenge (program shake (t ++ [(challengeString pk m sig, value t (challengeString pk m sig) f)])) (sig.take 57) pk m =
      outNat (value t (challengeString pk m sig) f) := by
  refine challenge_program shake _ _ _ _ _ ?_
  show List.lookup (challengeString pk m sig) _ = _
  generalize challengeString pk m sig = x
  cases hx : t.lookup x with
  | none => rw [lookup_append_none hx, List.lookup_cons, beq_self_eq_true]
  | some v => rw [value_some hx, lookup_append_some hx]

theorem won_congr {g g' : Game} {F : Forger} {shake shake' : Xof} {pk : List Byte} {f : Out} (h1 : g.signed = g'.signed) (h2 : g.seen = g'.seen)
    (h3 : g.table.lookup (challengeString pk (F.forge g'.seen).1 (F.forge g'.seen).2) =
      g'.table.lookup (challengeString pk (F.forge g'.seen).1 (F.forge g'.seen).2)) (h : g.Won ρ F shake pk f) : g'.Won ρ F shake' pk f := by
  rw [Game.Won, h1, h2] at h
  obtain ⟨h0, hl, A, R, hA, hR, he⟩ := h
  refine ⟨h0, hl, A, R, hA, hR, ?_⟩
  rw [challenge_won] at he ⊢
  rwa [value, ← h3]

/-- The string for which a value of the hash function is used in round `i`, or for the offer, apart from those for nonces. -/
noncomputable def usedString (F : Forger) (s n : ℕ) (h r : ℕ → Out) (i : ℕ) : List Byte :=
  let g := play F (fun i => realSigner s (outNat (r i))) h
  if i < n then asked F s (outNat (r i)) (g i) else challengeString (RFC.publicOf s) (F.forge (g n).seen).1 (F.forge (g n).seen).2

theorem full_real (F : Forger) (shake : Xof) (k : List Byte) (o : Out) (s : ℕ) (seed : List Byte) (hk : k.length = 57) (hs : seed.length = 57) (n : ℕ) (h r : ℕ → Out)
    (hw : FullWins ρ F shake k o s seed n h r) :
    Wins ρ F (fun i => realSigner s (outNat (r i))) shake (RFC.publicOf s) n h ∨ ∃ i : Fin (n + 1), Secret k seed (usedString F s n h r i) := by
  by_cases hg : ∃ i : Fin (n + 1), Secret k seed (usedString F s n h r i)
  · exact Or.inr hg
  · refine Or.inl ?_
    have h1 := full_eq F k o s seed hk hs h r n fun i hi hs => hg ⟨⟨i, by omega⟩, by simp only [usedString, if_pos hi]; exact hs⟩
    have h2 : ¬ Secret k seed (usedString F s n h r n) := fun hs => hg ⟨⟨n, by omega⟩, hs⟩
    simp only [usedString, Nat.lt_irrefl, if_false] at h2
    obtain ⟨e1, e2, e3, -⟩ := h1
    rw [FullWins] at hw
    rw [Wins]
    exact won_congr e1 e2 (e3 _ h2) hw

/-- C86, first step. The forger hardly ever asks for the private key or for a string that is hashed for a nonce. The private key is chosen from the set `K`. -/
theorem C86_secrets (ρ : Reading) (F : Forger) (shake : Xof) (K : Set (Fin 57 → Byte)) (hK : K.Nonempty) (a : Fin 57 → Byte) (n : ℕ) :
    let s := RFC.secretScalar (List.ofFn a)
    chance {x : (K × (Fin 57 → Byte)) × ((Fin (n + 1) → Out) × (Fin n → Out)) | 
        FullWins ρ F shake (List.ofFn x.1.1.1) (keyHash a x.1.2) s (List.ofFn x.1.2) n (extend x.2.1) (extend x.2.2)} ≤
      chance {y : (Fin (n + 1) → Out) × (Fin n → Out) | Wins ρ F (fun i => realSigner s (outNat (extend y.2 i))) shake (RFC.publicOf s) n (extend y.1)} +
        (n + 1) * (1 / Nat.card K + 1 / 2 ^ 456) := by
  intro s
  have _ : Nonempty K := hK.to_subtype
  have hc := secret_chance K hK
  generalize (1 / Nat.card K + 1 / 2 ^ 456 : ℚ) = c at *
  refine chance_split _ _ (fun x y => ∃ i : Fin (n + 1), Secret (List.ofFn x.1.1) (List.ofFn x.2) (usedString F s n (extend y.1) (extend y.2) i)) _ ?_ fun y => ?_
  · rintro ⟨k, b⟩ ⟨h, r⟩ hw
    exact full_real F shake _ _ s _ List.length_ofFn List.length_ofFn n (extend h) (extend r) hw
  · have h1 := chance_exists (fun (i : Fin (n + 1)) (x : K × (Fin 57 → Byte)) => Secret (List.ofFn x.1.1) (List.ofFn x.2) (usedString F s n (extend y.1) (extend y.2) i)) c
      fun i => hc _
    rw [Fintype.card_fin, Nat.cast_add, Nat.cast_one] at h1
    exact h1

theorem share_le : ((2 ^ 912 / q + 1 : ℕ) : ℚ) ≤ 2 ^ 912 / q + 1 := by
  have h1 : ((2 ^ 912 / q : ℕ) : ℚ) ≤ ((2 ^ 912 : ℕ) : ℚ) / q := Nat.cast_div_le
  push_cast at h1 ⊢
  linarith

/-- What happens in the game with the signer happens almost as often when the signatures are made without the secret. -/
theorem blind_chance (P : Game → Out → Prop) (F : Forger) (s n : ℕ) :
    chance {x : (Fin (n + 1) → Out) × (Fin n → Out) | P (play F (fun i => realSigner s (outNat (extend x.2 i))) (extend x.1) n) (extend x.1 n)} ≤
      (1 + q / 2 ^ 912) ^ n *
        (chance {x : (Fin (n + 1) → Out) × (Fin n → Fin q) | P (play F (fun i => blindSigner (s • B) (coin x.2 i)) (extend x.1) n) (extend x.1 n)} +
          n ^ 2 / q) := by
  have key := real_count P F s n
  simp only at key
  have hr : chance {x : (Fin (n + 1) → Out) × (Fin n → Out) | P (play F (fun i => realSigner s (outNat (extend x.2 i))) (extend x.1) n) (extend x.1 n)} =
      Set.ncard {x : (Fin (n + 1) → Out) × (Fin n → Out) | P (play F (fun i => realSigner s (outNat (extend x.2 i))) (extend x.1) n) (extend x.1 n)} /
        (((2 ^ 912) ^ (n + 1) : ℚ) * (2 ^ 912) ^ n) := by
    rw [chance, Nat.card_prod, nat_card_tape, nat_card_tape]
    push_cast
    rfl
  have hb : chance {x : (Fin (n + 1) → Out) × (Fin n → Fin q) | P (play F (fun i => blindSigner (s • B) (coin x.2 i)) (extend x.1) n) (extend x.1 n)} =
      Set.ncard {x : (Fin (n + 1) → Out) × (Fin n → Fin q) | P (play F (fun i => blindSigner (s • B) (coin x.2 i)) (extend x.1) n) (extend x.1 n)} /
        (((2 ^ 912) ^ (n + 1) : ℚ) * (q : ℚ) ^ n) := by
    rw [chance, Nat.card_prod, nat_card_tape, Nat.card_fun, Nat.card_fin, Nat.card_fin]
    push_cast
    rfl
  rw [hr, hb]
  generalize Set.ncard {x : (Fin (n + 1) → Out) × (Fin n → Out) |
    P (play F (fun i => realSigner s (outNat (extend x.2 i))) (extend x.1) n) (extend x.1 n)} = u at *
  generalize Set.ncard {x : (Fin (n + 1) → Out) × (Fin n → Fin q) |
    P (play F (fun i => blindSigner (s • B) (coin x.2 i)) (extend x.1) n) (extend x.1 n)} = v at *
  clear hr hb
  have hM := share_le
  generalize 2 ^ 912 / q + 1 = M at *
  rw [pow_mul] at key
  have hN : (0 : ℚ) < 2 ^ 912 := by positivity
  have key' : (u : ℚ) ≤ (M : ℚ) ^ n * (v + (2 ^ 912) ^ (n + 1) * (n * (n * (q : ℚ) ^ (n - 1)))) := by exact_mod_cast key
  generalize (2 : ℚ) ^ 912 = N at *
  have hq : (0 : ℚ) < q := by exact_mod_cast q_pos
  generalize (q : ℚ) = Q at *
  have hpow : (n : ℚ) * (n * Q ^ (n - 1)) = n ^ 2 * Q ^ n / Q := by
    cases n with
    | zero => simp
    | succ n => rw [Nat.add_sub_cancel]; field_simp; exact (pow_succ Q n).symm
  rw [hpow] at key'
  rw [div_le_iff₀ (by positivity)]
  refine key'.trans ?_
  have h1 : (M : ℚ) ≤ (1 + Q / N) * (N / Q) := by
    refine hM.trans (le_of_eq ?_)
    field_simp
  have h2 : (M : ℚ) ^ n ≤ (1 + Q / N) ^ n * (N / Q) ^ n := by
    rw [← mul_pow]
    exact pow_le_pow_left₀ (Nat.cast_nonneg _) h1 n
  refine (mul_le_mul_of_nonneg_right h2 (by positivity)).trans (le_of_eq ?_)
  rw [div_pow]
  field_simp

/-- C86, second step. Signatures that are made without the secret do almost as well. -/
theorem C86_blind (ρ : Reading) (F : Forger) (shake : Xof) (s n : ℕ) :
    chance {x : (Fin (n + 1) → Out) × (Fin n → Out) | Wins ρ F (fun i => realSigner s (outNat (extend x.2 i))) shake (RFC.publicOf s) n (extend x.1)} ≤
      (1 + q / 2 ^ 912) ^ n *
        (chance {x : (Fin (n + 1) → Out) × (Fin n → Fin q) | Wins ρ F (fun i => blindSigner (s • B) (coin x.2 i)) shake (RFC.publicOf s) n (extend x.1)} +
          n ^ 2 / q) :=
  blind_chance (fun g o => g.Won ρ F shake (RFC.publicOf s) o) F s n

/-- C86, third step. A forger who gets signatures that are made without the secret gives the secret. -/
theorem C86_extract (ρ : Reading) (F : Forger) (shake : Xof) (s n : ℕ) :
    let blind := {x : (Fin (n + 1) → Out) × (Fin n → Fin q) | Wins ρ F (fun i => blindSigner (s • B) (coin x.2 i)) shake (RFC.publicOf s) n (extend x.1)}
    let solves := {x : ((Fin (n + 1) → Out) × (Fin (n + 1) → Out)) × (Fin n → Fin q) |
      extract F (fun i => blindSigner (s • B) (coin x.2 i)) (RFC.publicOf s) n (extend x.1.1) (extend x.1.2) % q = s % q}
    chance blind ^ 2 ≤ (n + 1) * (chance solves + chance blind * (1 / q + 1 / 2 ^ 912)) := by
  intro blind solves
  have key := blind_count (ρ := ρ) F shake s n
  simp only at key
  have hb : chance blind = blind.ncard / (((2 ^ 912) ^ (n + 1) : ℚ) * (q : ℚ) ^ n) := by
    rw [chance, Nat.card_prod, nat_card_tape, Nat.card_fun, Nat.card_fin, Nat.card_fin]
    push_cast
    rfl
  have hs : chance solves = solves.ncard / (((2 ^ 912) ^ (n + 1) : ℚ) * (2 ^ 912) ^ (n + 1) * (q : ℚ) ^ n) := by
    rw [chance, Nat.card_prod, Nat.card_prod, nat_card_tape, Nat.card_fun, Nat.card_fin, Nat.card_fin]
    push_cast
    rfl
  rw [hb, hs]
  change blind.ncard ^ 2 ≤ q ^ n * ((n + 1) * (solves.ncard + blind.ncard * ((2 ^ 912 / q + 1) * 2 ^ (912 * n)))) at key
  generalize blind.ncard = u at *
  generalize solves.ncard = v at *
  have hM := share_le
  generalize 2 ^ 912 / q + 1 = M at *
  rw [pow_mul] at key
  have hN : (0 : ℚ) < 2 ^ 912 := by positivity
  have key' : (u : ℚ) ^ 2 ≤ (q : ℚ) ^ n * ((n + 1) * (v + u * (M * (2 ^ 912) ^ n))) := by exact_mod_cast key
  generalize (2 : ℚ) ^ 912 = N at *
  have hq : (0 : ℚ) < q := by exact_mod_cast q_pos
  generalize (q : ℚ) = Q at *
  rw [div_pow, div_le_iff₀ (by positivity)]
  refine key'.trans ?_
  have h1 : (M : ℚ) * N ^ n ≤ (1 / Q + 1 / N) * N ^ (n + 1) := by
    rw [pow_succ]
    have : (M : ℚ) ≤ (1 / Q + 1 / N) * N := by
      refine hM.trans (le_of_eq ?_)
      field_simp
    calc (M : ℚ) * N ^ n ≤ (1 / Q + 1 / N) * N * N ^ n := mul_le_mul_of_nonneg_right this (by positivity)
      _ = _ := by ring
  have h2 : Q ^ n * ((n + 1) * (v + u * (M * N ^ n))) ≤ Q ^ n * ((n + 1) * (v + u * ((1 / Q + 1 / N) * N ^ (n + 1)))) := by
    have hu : (0 : ℚ) ≤ u := Nat.cast_nonneg u
    gcongr
  refine h2.trans (le_of_eq ?_)
  generalize hP : N ^ (n + 1) = P at *
  have hP0 : 0 < P := by rw [← hP]; positivity
  generalize 1 / Q + 1 / N = d at *
  field_simp

/-- C86. The three steps together: if the secret is found with a chance of at most `w² / (n + 1)`, the forger wins with a chance that is hardly larger
than `w`. -/
theorem C86_unforgeable (ρ : Reading) (F : Forger) (shake : Xof) (K : Set (Fin 57 → Byte)) (hK : K.Nonempty) (a : Fin 57 → Byte) (n : ℕ) (w : ℚ) (hw : 0 ≤ w) :
    let s := RFC.secretScalar (List.ofFn a)
    (n + 1) * chance {x : ((Fin (n + 1) → Out) × (Fin (n + 1) → Out)) × (Fin n → Fin q) |
      extract F (fun i => blindSigner (s • B) (coin x.2 i)) (RFC.publicOf s) n (extend x.1.1) (extend x.1.2) % q = s % q} ≤ w ^ 2 →
    chance {x : (K × (Fin 57 → Byte)) × ((Fin (n + 1) → Out) × (Fin n → Out)) | 
        FullWins ρ F shake (List.ofFn x.1.1.1) (keyHash a x.1.2) s (List.ofFn x.1.2) n (extend x.2.1) (extend x.2.2)} ≤
      (1 + q / 2 ^ 912) ^ n * (w + (n + 1) * (1 / q + 1 / 2 ^ 912) + n ^ 2 / q) + (n + 1) * (1 / Nat.card K + 1 / 2 ^ 456) := by
  intro s hs
  have h1 := C86_secrets ρ F shake K hK a n
  have h2 := C86_blind ρ F shake s n
  have h3 := C86_extract ρ F shake s n
  simp only at h1 h3
  refine h1.trans (add_le_add_left (h2.trans ?_) _)
  have h0 := chance_nonneg {x : (Fin (n + 1) → Out) × (Fin n → Fin q) | Wins ρ F (fun i => blindSigner (s • B) (coin x.2 i)) shake (RFC.publicOf s) n (extend x.1)}
  generalize chance {x : (Fin (n + 1) → Out) × (Fin n → Fin q) | Wins ρ F (fun i => blindSigner (s • B) (coin x.2 i)) shake (RFC.publicOf s) n (extend x.1)} = β at *
  have hd : (0 : ℚ) ≤ (n + 1) * (1 / q + 1 / 2 ^ 912) := by positivity
  have h4 : β ^ 2 ≤ w ^ 2 + β * ((n + 1) * (1 / q + 1 / 2 ^ 912)) := by
    refine h3.trans ?_
    linarith [hs]
  generalize ((n : ℚ) + 1) * (1 / q + 1 / 2 ^ 912) = d at *
  have h5 : β ≤ w + d := by
    by_contra hlt
    push Not at hlt
    nlinarith
  have h6 : (0 : ℚ) ≤ (1 + q / 2 ^ 912) ^ n := by positivity
  exact mul_le_mul_of_nonneg_left (by linarith) h6

end Ed448
