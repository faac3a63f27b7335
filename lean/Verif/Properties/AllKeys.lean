import Verif.Properties.LibraryForger
import Verif.Properties.OneRepair

/-!
# C88: forging signatures for all private keys

C86 is for private keys without the sign bit. Here are those with the sign bit, and all together.
-/

namespace Ed448

set_option exponentiation.threshold 1000

/-! ## The game -/

theorem asked_mem (F : Forger) (s r : ℕ) (f : Out) (g : Game) (h : asked F s r g ≠ []) :
    asked F s r g ∈ (g.round F (realSigner s r) f).table.map Prod.fst := by
  rw [asked] at h ⊢
  rw [Game.round]
  cases hreq : F.next g.seen with
  | hash x => simp
  | sign m =>
    simp only [hreq] at h ⊢
    cases hl : g.signed.lookup m with
    | some sig => simp [hl] at h
    | none => simp [realSigner]

theorem used_mem (F : Forger) (s n : ℕ) (h r : ℕ → Out) (i : Fin (n + 1)) (hne : usedString F s n h r i ≠ []) :
    usedString F s n h r i ∈ hashed F (fun i => realSigner s (outNat (r i))) (RFC.publicOf s) n h := by
  simp only [usedString] at hne ⊢
  rw [hashed, List.mem_append]
  split
  · next hi =>
    left
    rw [if_pos hi] at hne
    obtain ⟨t, ht⟩ := play_table F (fun i => realSigner s (outNat (r i))) h (i := i.1 + 1) (n := n) hi
    rw [ht, List.map_append, List.mem_append]
    exact Or.inl (asked_mem F s _ (h i) _ hne)
  · right
    exact List.mem_singleton.mpr rfl

theorem secretScalar_lt (b : List Byte) : RFC.secretScalar b < 256 ^ 57 :=
  (secretScalar_range b).2.1.trans (by norm_num)

/-- A private key with the sign bit: as long as the secret does not show in a string that is hashed, nonces are as from a tape. -/
theorem full_direct (F : Forger) (shake : Xof) (k : List Byte) (o : Out) (hk : k.length = 57) (n : ℕ) (h r : ℕ → Out)
    (hw : FullWins ρ F shake k o (RFC.secretScalar k) (leBytes 57 (RFC.secretScalar k)) n h r) :
    Wins ρ F (fun i => realSigner (RFC.secretScalar k) (outNat (r i))) shake (RFC.publicOf (RFC.secretScalar k)) n h ∨
      Finds F (fun i => realSigner (RFC.secretScalar k) (outNat (r i))) (RFC.publicOf (RFC.secretScalar k)) n h (RFC.secretScalar k) := by
  rcases full_real F shake k o (RFC.secretScalar k) (leBytes 57 (RFC.secretScalar k)) hk (by simp) n h r hw with h1 | ⟨i, h1⟩
  · exact Or.inl h1
  · right
    have hd : RFC.dom4.length = 10 := by decide
    have hne : usedString F (RFC.secretScalar k) n h r i ≠ [] := by
      intro e
      rw [e] at h1
      rcases h1 with h1 | h1
      · rw [← h1] at hk; cases hk
      · rw [List.prefix_nil, List.append_eq_nil_iff] at h1
        rw [h1.1] at hd; cases hd
    refine ⟨_, used_mem F _ n h r i hne, ?_⟩
    generalize usedString F (RFC.secretScalar k) n h r i = x at *
    rcases h1 with h1 | ⟨m, rfl⟩
    · exact ⟨RFC.secretScalar k, by rw [h1]; exact List.mem_cons_self, rfl⟩
    · refine ⟨_, List.mem_cons_of_mem _ (List.mem_singleton.mpr rfl), ?_⟩
      rw [List.append_assoc, List.drop_left' hd, List.take_left' (by simp), leNat_leBytes, Nat.mod_eq_of_lt (secretScalar_lt k)]

/-! ## The library -/

/-- The library with a private key with the sign bit. The first question is not needed. -/
noncomputable def directTree (ρ : Reading) (F : List Byte → Forger) (k : List Byte) (n : ℕ) : Tree (List Byte) Out :=
  .ask k fun _ => rounds ρ (F (RFC.publicOf (RFC.secretScalar k))) k (RFC.secretScalar k) (leBytes 57 (RFC.secretScalar k)) n [] []

theorem run_directTree (F : List Byte → Forger) (xof : Xof) (k : Arr Byte 57) (hk : signBit k.1 = 1) (n : ℕ) :
    (directTree ρ F k.1 n).run (outOf xof) ↔ LibNew ρ F xof k n := by
  have e1 : RFC.secretScalar k.1 = keyScalar xof k.1 := by rw [keyScalar, if_neg (by omega)]
  have e2 : leBytes 57 (RFC.secretScalar k.1) = keySeed xof k.1 := by rw [keySeed, if_neg (by omega)]
  rw [directTree, Tree.run, e2, e1]
  exact run_start F xof k n

theorem asks_directTree {F : List Byte → Forger} {L : ℕ} (hF : Bounded F L) (k : List Byte) (hk : k.length = 57) (n : ℕ) :
    (directTree ρ F k n).Asks (Short L) (2 * n + 2) := by
  have h1 := (hF (RFC.publicOf 0) (encodePoint_length _) []).2.2
  exact ⟨show k.length ≤ L by omega, 2 * n + 1, rfl, fun o => asks_rounds (hF _ (encodePoint_length _)) k hk _ _ (by simp) n _ _⟩

theorem lazy_directTree (F : List Byte → Forger) (shake : Xof) (k : List Byte) (o : Out) (h r : ℕ → Out) (n : ℕ) :
    (directTree ρ F k n).lazy [] (o :: merged h r 0 n) ↔
      FullWins ρ (F (RFC.publicOf (RFC.secretScalar k))) shake k o (RFC.secretScalar k) (leBytes 57 (RFC.secretScalar k)) n h r := by
  rw [directTree, Tree.lazy, FullWins]
  have := lazy_rounds (ρ := ρ) (F (RFC.publicOf (RFC.secretScalar k))) shake k o (RFC.secretScalar k) (leBytes 57 (RFC.secretScalar k)) h r n 0 [(k, o)] []
    ⟨fun x => by rw [fullPlay], fun m sig => by simp [fullPlay], fun m sig hm => by simp [fullPlay] at hm, o, by simp⟩
  rw [Nat.zero_add] at this
  exact this

/-- What a forger can do with the library, for one private key with the sign bit. -/
theorem chance_direct {F : List Byte → Forger} {L : ℕ} (hF : Bounded F L) (shake : Xof) (k : Fin 57 → Byte) (hk : signBit (List.ofFn k) = 1) (n : ℕ) :
    let s := RFC.secretScalar (List.ofFn k)
    chance {f : Short L → Out | LibNew ρ F (hashOf f) (keyOf k) n} ≤
      chance {y : (Fin (n + 1) → Out) × (Fin n → Out) |
        Wins ρ (F (RFC.publicOf s)) (fun i => realSigner s (outNat (extend y.2 i))) shake (RFC.publicOf s) n (extend y.1) ∨
        Finds (F (RFC.publicOf s)) (fun i => realSigner s (outNat (extend y.2 i))) (RFC.publicOf s) n (extend y.1) s} := by
  intro s
  rw [chance_tree (directTree ρ F (List.ofFn k) n) (asks_directTree hF _ List.length_ofFn n) _ fun f => run_directTree F (hashOf f) (keyOf k) hk n]
  rw [← chance_snd (α := Out) {y : (Fin (n + 1) → Out) × (Fin n → Out) |
        Wins ρ (F (RFC.publicOf s)) (fun i => realSigner s (outNat (extend y.2 i))) shake (RFC.publicOf s) n (extend y.1) ∨
        Finds (F (RFC.publicOf s)) (fun i => realSigner s (outNat (extend y.2 i))) (RFC.publicOf s) n (extend y.1) s}]
  rw [chance, chance]
  have hcard : Nat.card (Fin (2 * n + 2) → Out) = Nat.card (Out × ((Fin (n + 1) → Out) × (Fin n → Out))) := by
    simp only [Nat.card_prod, nat_card_tape]
    rw [nat_card_out, show 2 * n + 2 = (n + 1) + n + 1 by omega, pow_succ, pow_add]
    generalize (2 : ℕ) ^ 912 = u
    ring
  rw [hcard]
  refine div_le_div_of_nonneg_right ?_ (Nat.cast_nonneg _)
  rw [Nat.cast_le]
  refine Set.ncard_le_ncard_of_injOn (fun v => (v 0, (evenPart v, oddPart v))) ?_ ?_ (Set.toFinite _)
  · intro v hx
    rw [Set.mem_ofPred_eq] at hx
    rw [ofFn_parts] at hx
    exact full_direct _ shake _ _ List.length_ofFn n _ _ ((lazy_directTree F shake (List.ofFn k) (v 0) _ _ n).mp hx)
  · intro v _ v' _ e
    simp only [Prod.mk.injEq] at e
    exact parts_inj v v' e.1 e.2.1 e.2.2

/-! ## Averages -/

theorem chance_avg_left {α β : Type} [Fintype α] [Finite β] (P : α × β → Prop) : chance {x | P x} = (∑ a, chance {b | P (a, b)}) / Fintype.card α := by
  have _ : Fintype β := Fintype.ofFinite β
  simp only [chance]
  rw [ncard_prod_left, Nat.card_prod, ← Finset.sum_div, div_div, Nat.card_eq_fintype_card (α := α), mul_comm]
  push_cast
  rfl

/-- As `average`, with another chance `guess` for each secret. -/
theorem average_guess {ι : Type} [Fintype ι] [Nonempty ι] (full blind solves guess : ι → ℚ) (c d e m w v : ℚ) (hw : 0 ≤ w) (hm : 0 ≤ m) (hc : 0 ≤ c) (hd : 0 ≤ d)
    (h2 : ∀ a, full a ≤ c * (blind a + guess a + e)) (h3 : ∀ a, blind a ^ 2 ≤ m * (solves a + blind a * d))
    (hs : m * ((∑ a, solves a) / Fintype.card ι) ≤ w ^ 2) (hv : (∑ a, guess a) / Fintype.card ι ≤ v) :
    (∑ a, full a) / Fintype.card ι ≤ c * (w + v + m * d + e) := by
  have key := average (fun a => full a - c * guess a) (fun a => c * (blind a + e)) blind solves c d e 0 m w hw hm hc hd
    (fun a => by linarith [h2 a]) (fun a => le_refl _) h3 hs
  rw [Finset.sum_sub_distrib, ← Finset.mul_sum, sub_div, mul_div_assoc] at key
  have := mul_le_mul_of_nonneg_left hv hc
  linarith

/-! ## Keys with the sign bit -/

/-- C88, for private keys with the sign bit. -/
theorem direct_bound (W : Xof → Arr Byte 57 → Prop) (F : List Byte → Forger) (L : ℕ) (hF : Bounded F L)
    (K : Set (Fin 57 → Byte)) (hK : K.Nonempty) (hb : ∀ k ∈ K, signBit (List.ofFn k) = 1) (n : ℕ) (hW : ∀ xof k, W xof k → LibNew ρ F xof k n) (w v : ℚ) (hw : 0 ≤ w)
    (hs : (n + 1) * chance {x : (((Fin (n + 1) → Out) × (Fin (n + 1) → Out)) × (Fin n → Fin q)) × K |
      let s := RFC.secretScalar (List.ofFn x.2.1)
      let A := s • B
      extract (F (encodePoint A)) (fun i => blindSigner A (coin x.1.2 i)) (encodePoint A) n (extend x.1.1.1) (extend x.1.1.2) % q = s % q} ≤ w ^ 2)
    (hv : chance {x : ((Fin (n + 1) → Out) × (Fin n → Fin q)) × K |
      let s := RFC.secretScalar (List.ofFn x.2.1)
      let A := s • B
      Finds (F (encodePoint A)) (fun i => blindSigner A (coin x.1.2 i)) (encodePoint A) n (extend x.1.1) s} ≤ v) :
    chance {x : K × (Short L → Out) | W (hashOf x.2) (keyOf x.1)} ≤
      (1 + q / 2 ^ 912) ^ n * (w + v + (n + 1) * (1 / q + 1 / 2 ^ 912) + n ^ 2 / q) := by
  have _ : Fintype K := Fintype.ofFinite _
  have _ : Nonempty K := hK.to_subtype
  refine (chance_mono (T := {x : K × (Short L → Out) | LibNew ρ F (hashOf x.2) (keyOf x.1) n}) (fun x hx => hW _ _ hx)).trans ?_
  rw [chance_avg_left (fun x : K × (Short L → Out) => LibNew ρ F (hashOf x.2) (keyOf x.1) n)]
  rw [chance_avg] at hs hv
  have h1 := fun k : K => chance_direct (ρ := ρ) hF (fun _ _ => 0) k.1 (hb k.1 k.2) n
  have h2 := fun k : K => blind_chance (fun g o => g.Won ρ (F (RFC.publicOf (RFC.secretScalar (List.ofFn k.1)))) (fun _ _ => 0)
      (RFC.publicOf (RFC.secretScalar (List.ofFn k.1))) o ∨
    ∃ x ∈ g.table.map Prod.fst ++ [challengeString (RFC.publicOf (RFC.secretScalar (List.ofFn k.1)))
      ((F (RFC.publicOf (RFC.secretScalar (List.ofFn k.1)))).forge g.seen).1 ((F (RFC.publicOf (RFC.secretScalar (List.ofFn k.1)))).forge g.seen).2],
      ∃ v ∈ tries x, v % q = RFC.secretScalar (List.ofFn k.1) % q)
    (F (RFC.publicOf (RFC.secretScalar (List.ofFn k.1)))) (RFC.secretScalar (List.ofFn k.1)) n
  have h3 := fun k : K => C86_extract ρ (F (RFC.publicOf (RFC.secretScalar (List.ofFn k.1)))) (fun _ _ => 0) (RFC.secretScalar (List.ofFn k.1)) n
  simp only at h1 h3 hs hv
  refine average_guess _ _ _ _ _ _ _ _ w v hw (by positivity) (by positivity) (by positivity) (fun k => ?_) h3 hs hv
  refine (h1 k).trans ((h2 k).trans ?_)
  refine mul_le_mul_of_nonneg_left (add_le_add_left ?_ _) (by positivity)
  exact chance_union {x : (Fin (n + 1) → Out) × (Fin n → Fin q) | Wins ρ (F (RFC.publicOf (RFC.secretScalar (List.ofFn k.1))))
      (fun i => blindSigner (RFC.secretScalar (List.ofFn k.1) • B) (coin x.2 i)) (fun _ _ => 0) (RFC.publicOf (RFC.secretScalar (List.ofFn k.1))) n (extend x.1)}
    {x : (Fin (n + 1) → Out) × (Fin n → Fin q) | Finds (F (RFC.publicOf (RFC.secretScalar (List.ofFn k.1))))
      (fun i => blindSigner (RFC.secretScalar (List.ofFn k.1) • B) (coin x.2 i)) (RFC.publicOf (RFC.secretScalar (List.ofFn k.1))) n (extend x.1)
      (RFC.secretScalar (List.ofFn k.1))}

/-! ## All keys -/

/-- The private key with the other sign bit. -/
def flip (k : Fin 57 → Byte) : Fin 57 → Byte := Function.update k 56 (k 56 ^^^ 0x80)

theorem flip_flip (k : Fin 57 → Byte) : flip (flip k) = k := by
  rw [flip, flip, Function.update_idem, Function.update_self, BitVec.xor_assoc, BitVec.xor_self, BitVec.xor_zero, Function.update_eq_self]

theorem signBit_ofFn (k : Fin 57 → Byte) : signBit (List.ofFn k) = (k 56).toNat / 128 := by
  rw [signBit, List.getD_eq_getElem?_getD, List.getElem?_ofFn, dif_pos (by omega)]
  rfl

theorem signBit_flip (k : Fin 57 → Byte) : signBit (List.ofFn (flip k)) = 1 ↔ ¬ signBit (List.ofFn k) = 1 := by
  rw [signBit_ofFn, signBit_ofFn, flip, Function.update_self]
  generalize k 56 = b
  revert b
  decide +kernel

theorem secretScalar_flip (k : Fin 57 → Byte) : RFC.secretScalar (List.ofFn (flip k)) = RFC.secretScalar (List.ofFn k) := by
  have e : ∀ i, i < 56 → (List.ofFn (flip k)).getD i 0 = (List.ofFn k).getD i 0 := by
    intro i hi
    rw [List.getD_eq_getElem?_getD, List.getD_eq_getElem?_getD, List.getElem?_ofFn, List.getElem?_ofFn, dif_pos (by omega), dif_pos (by omega), flip,
      Function.update_of_ne]
    intro e
    have := congrArg Fin.val e
    simp only at this
    omega
  exact sameUpToClamp_scalar (k := keyOf (flip k)) (k' := keyOf k) ⟨congrArg (fun b => BitVec.toNat b / 4) (e 0 (by omega)), fun i _ hi => e i (by omega),
    congrArg (fun b => BitVec.toNat b % 128) (e 55 (by omega))⟩

theorem sum_split {ι : Type} [Fintype ι] (p p' : Set ι) [Fintype p] [Fintype p'] (hp : ∀ i, i ∈ p' ↔ i ∉ p) (g : ι → ℚ) :
    ∑ i, g i = ∑ i : p', g i + ∑ i : p, g i := by
  classical
  have h1 : ∀ (u : Set ι) [Fintype u], ∑ i : u, g i = ∑ i with i ∈ u, g i := fun u _ => (Finset.sum_subtype _ (by simp) g).symm
  rw [h1, h1, ← Finset.sum_filter_add_sum_filter_not Finset.univ (· ∈ p), add_comm]
  simp only [hp]

theorem sum_half {ι : Type} [Fintype ι] (p p' : Set ι) [Fintype p] [Fintype p'] (hp : ∀ i, i ∈ p' ↔ i ∉ p) (σ : ι → ι) (hσ : ∀ i, σ (σ i) = i)
    (hs : ∀ i, σ i ∈ p ↔ i ∉ p) (g : ι → ℚ) (hg : ∀ i, g (σ i) = g i) : ∑ i : p', g i = ∑ i : p, g i := by
  have h3 : ∀ i, i ∈ p' ↔ σ i ∈ p := fun i => by rw [hp, hs]
  have h4 : ∀ i, i ∈ p ↔ σ i ∈ p' := fun i => by rw [hp, hs, not_not]
  refine Fintype.sum_equiv ⟨fun i => ⟨σ i.1, (h3 i.1).mp i.2⟩, fun i => ⟨σ i.1, (h4 i.1).mp i.2⟩, fun i => Subtype.ext (hσ i.1), fun i => Subtype.ext (hσ i.1)⟩ _ _ ?_
  intro i
  exact (hg i.1).symm

/-- All private keys with the sign bit. -/
def directKeys : Set (Fin 57 → Byte) := {k | signBit (List.ofFn k) = 1}

theorem ordinary_iff (k : Fin 57 → Byte) : k ∈ ordinaryKeys ↔ k ∉ directKeys := by
  show signBit (List.ofFn k) = 0 ↔ ¬ signBit (List.ofFn k) = 1
  have := signBit_lt (List.ofFn k)
  omega

theorem card_keys [Fintype (Fin 57 → Byte)] [Fintype directKeys] [Fintype ordinaryKeys] :
    (Fintype.card (Fin 57 → Byte) : ℚ) = 2 * Fintype.card directKeys ∧ (Fintype.card ordinaryKeys : ℚ) = Fintype.card directKeys := by
  have h1 := sum_split directKeys ordinaryKeys ordinary_iff fun _ => 1
  have h2 := sum_half directKeys ordinaryKeys ordinary_iff flip flip_flip signBit_flip (fun _ => 1) fun _ => rfl
  simp only [Finset.sum_const, Finset.card_univ, nsmul_eq_mul, mul_one] at h1 h2
  exact ⟨by linarith, h2⟩

/-- Secret scalars are distributed alike for random private keys with the sign bit and for random strings. -/
theorem chance_scalars {α : Type} [Finite α] [Nonempty α] (P : α → ℕ → Prop) :
    chance {x : α × directKeys | P x.1 (RFC.secretScalar (List.ofFn x.2.1))} = chance {x : α × (Fin 57 → Byte) | P x.1 (RFC.secretScalar (List.ofFn x.2))} := by
  have _ : Fintype (Fin 57 → Byte) := Fintype.ofFinite _
  have _ : Fintype directKeys := Fintype.ofFinite _
  have _ : Fintype ordinaryKeys := Fintype.ofFinite _
  rw [chance_avg, chance_avg]
  have h1 := sum_split directKeys ordinaryKeys ordinary_iff fun k => chance {a | P a (RFC.secretScalar (List.ofFn k))}
  have h2 := sum_half directKeys ordinaryKeys ordinary_iff flip flip_flip signBit_flip
    (fun k => chance {a | P a (RFC.secretScalar (List.ofFn k))}) fun k => by rw [secretScalar_flip]
  rw [h1, h2, card_keys.1, ← two_mul, mul_div_mul_left _ _ two_ne_zero]

/-- Half of all private keys have the sign bit. -/
theorem chance_halves {β : Type} [Finite β] (P : (Fin 57 → Byte) × β → Prop) :
    chance {x | P x} = (chance {x : ordinaryKeys × β | P (x.1.1, x.2)} + chance {x : directKeys × β | P (x.1.1, x.2)}) / 2 := by
  have _ : Fintype (Fin 57 → Byte) := Fintype.ofFinite _
  have _ : Fintype directKeys := Fintype.ofFinite _
  have _ : Fintype ordinaryKeys := Fintype.ofFinite _
  rw [chance_avg_left P, chance_avg_left (fun x : ordinaryKeys × β => P (x.1.1, x.2)), chance_avg_left (fun x : directKeys × β => P (x.1.1, x.2)),
    sum_split directKeys ordinaryKeys ordinary_iff, card_keys.1, card_keys.2, ← add_div, div_div, mul_comm 2]

theorem keys_nonempty : ordinaryKeys.Nonempty ∧ directKeys.Nonempty :=
  ⟨⟨fun _ => 0, by rw [ordinaryKeys, Set.mem_ofPred_eq, signBit_ofFn]; rfl⟩, ⟨fun _ => 255, by rw [directKeys, Set.mem_ofPred_eq, signBit_ofFn]; rfl⟩⟩

/-- The bound with numbers. -/
theorem direct_numbers (W : Xof → Arr Byte 57 → Prop) (F : List Byte → Forger) (L : ℕ) (hF : Bounded F L)
    (n : ℕ) (hn : n < 2 ^ 100) (hW : ∀ xof k, W xof k → LibNew ρ F xof k n) (w v : ℚ) (hw : 0 ≤ w)
    (hs : (n + 1) * chance {x : (((Fin (n + 1) → Out) × (Fin (n + 1) → Out)) × (Fin n → Fin q)) × (Fin 57 → Byte) |
      let s := RFC.secretScalar (List.ofFn x.2)
      let A := s • B
      extract (F (encodePoint A)) (fun i => blindSigner A (coin x.1.2 i)) (encodePoint A) n (extend x.1.1.1) (extend x.1.1.2) % q = s % q} ≤ w ^ 2)
    (hv : chance {x : ((Fin (n + 1) → Out) × (Fin n → Fin q)) × (Fin 57 → Byte) |
      let s := RFC.secretScalar (List.ofFn x.2)
      let A := s • B
      Finds (F (encodePoint A)) (fun i => blindSigner A (coin x.1.2 i)) (encodePoint A) n (extend x.1.1) s} ≤ v) :
    chance {x : directKeys × (Short L → Out) | W (hashOf x.2) (keyOf x.1)} ≤ 2 * w + 2 * v + 1 / 2 ^ 240 := by
  have _ : Nonempty (Fin q) := ⟨⟨0, q_pos⟩⟩
  have hv0 : 0 ≤ v := (chance_nonneg _).trans hv
  rw [← chance_scalars (fun (x : ((Fin (n + 1) → Out) × (Fin (n + 1) → Out)) × (Fin n → Fin q)) s =>
    extract (F (encodePoint (s • B))) (fun i => blindSigner (s • B) (coin x.2 i)) (encodePoint (s • B)) n (extend x.1.1) (extend x.1.2) % q = s % q)] at hs
  rw [← chance_scalars (fun (x : (Fin (n + 1) → Out) × (Fin n → Fin q)) s =>
    Finds (F (encodePoint (s • B))) (fun i => blindSigner (s • B) (coin x.2 i)) (encodePoint (s • B)) n (extend x.1) s)] at hv
  refine (direct_bound W F L hF directKeys keys_nonempty.2 (fun k hk => hk) n hW w v hw hs hv).trans ?_
  clear hs hv
  obtain ⟨q1, q2⟩ := q_bounds
  have hn0 : (0 : ℚ) ≤ n := Nat.cast_nonneg n
  have hn1 : (n : ℚ) + 1 ≤ 2 ^ 100 := by exact_mod_cast hn
  generalize (q : ℚ) = Q at *
  have hQ : 0 < Q := lt_of_lt_of_le (by positivity) q1
  have hQ1 : 1 / Q ≤ 1 / 2 ^ 445 := one_div_le_one_div_of_le (by positivity) q1
  have hx : Q / 2 ^ 912 ≤ 2 ^ 446 / 2 ^ 912 := div_le_div_of_nonneg_right q2 (by positivity)
  have hx0 : 0 ≤ Q / 2 ^ 912 := by positivity
  have hg : (1 + Q / 2 ^ 912) ^ n ≤ 2 := by
    refine growth _ n hx0 ?_ (hx.trans (by norm_num))
    have : (n : ℚ) * (Q / 2 ^ 912) ≤ 2 ^ 100 * (2 ^ 446 / 2 ^ 912) := mul_le_mul (by linarith) hx hx0 (by positivity)
    exact this.trans (by norm_num)
  have he : ((n : ℚ) + 1) * (1 / Q + 1 / 2 ^ 912) + n ^ 2 / Q ≤ 2 ^ 100 * (1 / 2 ^ 445 + 1 / 2 ^ 912) + (2 ^ 100) ^ 2 * (1 / 2 ^ 445) := by
    have h1 : ((n : ℚ) + 1) * (1 / Q + 1 / 2 ^ 912) ≤ 2 ^ 100 * (1 / 2 ^ 445 + 1 / 2 ^ 912) :=
      mul_le_mul hn1 (by linarith) (by positivity) (by positivity)
    have h2 : (n : ℚ) ^ 2 / Q ≤ (2 ^ 100) ^ 2 * (1 / 2 ^ 445) := by
      rw [div_eq_mul_one_div]
      exact mul_le_mul (pow_le_pow_left₀ hn0 (by linarith) 2) hQ1 (by positivity) (by positivity)
    linarith
  have he0 : 0 ≤ ((n : ℚ) + 1) * (1 / Q + 1 / 2 ^ 912) + n ^ 2 / Q := by positivity
  have hm : (1 + Q / 2 ^ 912) ^ n * (w + v + (n + 1) * (1 / Q + 1 / 2 ^ 912) + n ^ 2 / Q) ≤
      2 * (w + v + (n + 1) * (1 / Q + 1 / 2 ^ 912) + n ^ 2 / Q) := mul_le_mul_of_nonneg_right hg (by linarith)
  have hnum : 2 * (2 ^ 100 * (1 / 2 ^ 445 + 1 / 2 ^ 912) + (2 ^ 100) ^ 2 * (1 / 2 ^ 445)) ≤ (1 : ℚ) / 2 ^ 240 := by
    norm_num
  linarith

theorem all_numbers (W : Xof → Arr Byte 57 → Prop) (F : List Byte → Forger) (L : ℕ) (hF : Bounded F L)
    (n : ℕ) (hn : n < 2 ^ 100) (hW : ∀ xof k, W xof k → LibNew ρ F xof k n) (w v : ℚ) (hw : 0 ≤ w)
    (hs : (n + 1) * chance {x : (((Fin (n + 1) → Out) × (Fin (n + 1) → Out)) × (Fin n → Fin q)) × (Fin 57 → Byte) |
      let s := RFC.secretScalar (List.ofFn x.2)
      let A := s • B
      extract (F (encodePoint A)) (fun i => blindSigner A (coin x.1.2 i)) (encodePoint A) n (extend x.1.1.1) (extend x.1.1.2) % q = s % q} ≤ w ^ 2)
    (hv : chance {x : ((Fin (n + 1) → Out) × (Fin n → Fin q)) × (Fin 57 → Byte) |
      let s := RFC.secretScalar (List.ofFn x.2)
      let A := s • B
      Finds (F (encodePoint A)) (fun i => blindSigner A (coin x.1.2 i)) (encodePoint A) n (extend x.1.1) s} ≤ v) :
    chance {x : (Fin 57 → Byte) × (Short L → Out) | W (hashOf x.2) (keyOf x.1)} ≤ 2 * w + v + 1 / 2 ^ 240 := by
  have h1 := numbers_bound W F L hF n hn hW w hw hs
  have h2 := direct_numbers W F L hF n hn hW w v hw hs hv
  rw [chance_halves (fun x : (Fin 57 → Byte) × (Short L → Out) => W (hashOf x.2) (keyOf x.1))]
  linarith

/-- C88, keys with the sign bit. There are two procedures that know only the public key: `extract` runs the forger twice, with the same replies up to one of the
requests, and `Finds` tries what is in the strings at which the forger asks for the hash function. If a random secret is found by the first with a chance of at
most `w² / (n + 1)` and by the second with a chance of at most `v`, the chance that the forger succeeds is at most `2 w + 2 v + 2^(-240)`. -/
theorem C88_direct (F : List Byte → Forger) (L : ℕ) (hF : Bounded F L) (n : ℕ) (hn : n < 2 ^ 100) (w v : ℚ) (hw : 0 ≤ w)
    (hs : (n + 1) * chance {x : (((Fin (n + 1) → Out) × (Fin (n + 1) → Out)) × (Fin n → Fin q)) × (Fin 57 → Byte) |
      let s := RFC.secretScalar (List.ofFn x.2)
      let A := s • B
      extract (F (encodePoint A)) (fun i => blindSigner A (coin x.1.2 i)) (encodePoint A) n (extend x.1.1.1) (extend x.1.1.2) % q = s % q} ≤ w ^ 2)
    (hv : chance {x : ((Fin (n + 1) → Out) × (Fin n → Fin q)) × (Fin 57 → Byte) |
      let s := RFC.secretScalar (List.ofFn x.2)
      let A := s • B
      Finds (F (encodePoint A)) (fun i => blindSigner A (coin x.1.2 i)) (encodePoint A) n (extend x.1.1) s} ≤ v) :
    chance {x : directKeys × (Short L → Out) | LibForges RFC.Valid F (hashOf x.2) (keyOf x.1) n} ≤ 2 * w + 2 * v + 1 / 2 ^ 240 :=
  direct_numbers (fun xof k => LibForges RFC.Valid F xof k n) F L hF n hn (forges_new fun _ _ _ _ _ _ => valid_loose) w v hw hs hv

/-- C88. The private key is random among all strings of 57 bytes, as `ed448_generate_key` makes it. -/
theorem C88_all (F : List Byte → Forger) (L : ℕ) (hF : Bounded F L) (n : ℕ) (hn : n < 2 ^ 100) (w v : ℚ) (hw : 0 ≤ w)
    (hs : (n + 1) * chance {x : (((Fin (n + 1) → Out) × (Fin (n + 1) → Out)) × (Fin n → Fin q)) × (Fin 57 → Byte) |
      let s := RFC.secretScalar (List.ofFn x.2)
      let A := s • B
      extract (F (encodePoint A)) (fun i => blindSigner A (coin x.1.2 i)) (encodePoint A) n (extend x.1.1.1) (extend x.1.1.2) % q = s % q} ≤ w ^ 2)
    (hv : chance {x : ((Fin (n + 1) → Out) × (Fin n → Fin q)) × (Fin 57 → Byte) |
      let s := RFC.secretScalar (List.ofFn x.2)
      let A := s • B
      Finds (F (encodePoint A)) (fun i => blindSigner A (coin x.1.2 i)) (encodePoint A) n (extend x.1.1) s} ≤ v) :
    chance {x : (Fin 57 → Byte) × (Short L → Out) | LibForges RFC.Valid F (hashOf x.2) (keyOf x.1) n} ≤ 2 * w + v + 1 / 2 ^ 240 :=
  all_numbers (fun xof k => LibForges RFC.Valid F xof k n) F L hF n hn (forges_new fun _ _ _ _ _ _ => valid_loose) w v hw hs hv

/-- C88. The same for signatures that a verifier with the first repair accepts. -/
theorem C88_verifiers (f : Repairs) (hf : f.limb15 = true) (F : List Byte → Forger) (L : ℕ) (hF : Bounded F L) (n : ℕ) (hn : n < 2 ^ 100) (w v : ℚ) (hw : 0 ≤ w)
    (hs : (n + 1) * chance {x : (((Fin (n + 1) → Out) × (Fin (n + 1) → Out)) × (Fin n → Fin q)) × (Fin 57 → Byte) |
      let s := RFC.secretScalar (List.ofFn x.2)
      let A := s • B
      extract (F (encodePoint A)) (fun i => blindSigner A (coin x.1.2 i)) (encodePoint A) n (extend x.1.1.1) (extend x.1.1.2) % q = s % q} ≤ w ^ 2)
    (hv : chance {x : ((Fin (n + 1) → Out) × (Fin n → Fin q)) × (Fin 57 → Byte) |
      let s := RFC.secretScalar (List.ofFn x.2)
      let A := s • B
      Finds (F (encodePoint A)) (fun i => blindSigner A (coin x.1.2 i)) (encodePoint A) n (extend x.1.1) s} ≤ v) :
    chance {x : (Fin 57 → Byte) × (Short L → Out) |
      LibForges (fun xof pk m sig => f.ed448_verify xof pk sig m = .ok (.ok true)) F (hashOf x.2) (keyOf x.1) n} ≤ 2 * w + v + 1 / 2 ^ 240 :=
  all_numbers (fun xof k => LibForges (fun xof pk m sig => f.ed448_verify xof pk sig m = .ok (.ok true)) F xof k n) F L hF n hn
    (forges_new fun xof k pk m sig hk h => C87_loose f hf xof k pk m sig hk h) w v hw hs hv

/-! ## Concrete cases -/

/-- The hypotheses of `C88_all` are met. With such numbers the bound is above 1 and says nothing; `C95_guess` has a forger for whom the numbers are small. -/
example : chance {x : (Fin 57 → Byte) × (Short 126 → Out) | LibForges RFC.Valid exampleForger (hashOf x.2) (keyOf x.1) 3} ≤ 2 * 2 + 1 + 1 / 2 ^ 240 := by
  have _ : Nonempty (Fin q) := ⟨⟨0, q_pos⟩⟩
  refine C88_all exampleForger 126 exampleForger_bounded 3 (by norm_num) 2 1 (by norm_num) ?_ (chance_le_one _)
  refine (mul_le_mul_of_nonneg_left (chance_le_one _) (by positivity)).trans ?_
  norm_num

end Ed448
