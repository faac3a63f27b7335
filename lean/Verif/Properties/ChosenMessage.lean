import Mathlib.Data.Set.Card.Arithmetic
import Verif.Properties.Unforgeable

/-!
# C86: signatures of chosen messages do not help
-/

namespace Ed448

set_option exponentiation.threshold 1000

/-! ## The two ways to make signatures give the same games -/

/-- The message for which a new signature is made in the next round, if there is one. -/
def newSign (F : Forger) (g : Game) : Option (List Byte) :=
  match F.next g.seen with
  | .hash _ => none
  | .sign m => if g.signed.lookup m = none then some m else none

theorem play_signers (F : Forger) {S S' : ℕ → Signer} (h : ℕ → Out) : ∀ n, (∀ i < n, S i = S' i) → play F S h n = play F S' h n
  | 0, _ => rfl
  | n + 1, e => by rw [play, play, play_signers F h n (fun i hi => e i (by omega)), e n (by omega)]

/-- The second halves of the signatures that are made with the nonces `r` (and the nonces themselves in rounds without a new signature). -/
noncomputable def shifted (F : Forger) (s : ℕ) (h : ℕ → Out) (r : ℕ → ℕ) (i : ℕ) : ℕ :=
  match newSign F (play F (fun i => realSigner s (r i)) h i) with
  | some _ => (r i + outNat (h i) * s) % q
  | none => r i

/-- The value of the hash function that a new signature in round `i` needs is already fixed. -/
def Hit (F : Forger) (s : ℕ) (h : ℕ → Out) (r : ℕ → ℕ) (i : ℕ) : Prop :=
  ∃ m, newSign F (play F (fun i => realSigner s (r i)) h i) = some m ∧
    (play F (fun i => realSigner s (r i)) h i).table.lookup (RFC.dom4 ++ encodePoint (r i • B) ++ RFC.publicOf s ++ m) ≠ none

theorem blind_eq (F : Forger) (s : ℕ) (h : ℕ → Out) (r : ℕ → ℕ) : ∀ n, (∀ i < n, ¬ Hit F s h r i) →
    play F (fun i => realSigner s (r i)) h n = play F (fun i => blindSigner (s • B) (shifted F s h r i)) h n
  | 0, _ => rfl
  | n + 1, e => by
    have ih := blind_eq F s h r n fun i hi => e i (by omega)
    have hn := e n (by omega)
    rw [Hit] at hn
    rw [play, play, ← ih]
    have hz : shifted F s h r n = match newSign F (play F (fun i => realSigner s (r i)) h n) with
      | some _ => (r n + outNat (h n) * s) % q
      | none => r n := rfl
    generalize play F (fun i => realSigner s (r i)) h n = g at *
    simp only [Game.round]
    cases hreq : F.next g.seen with
    | hash str => rfl
    | sign m =>
      cases hl : g.signed.lookup m with
      | some sig => simp only [hl]
      | none =>
        have hnew : newSign F g = some m := by simp [newSign, hreq, hl]
        rw [hnew] at hz hn
        have hv : ∀ f, value g.table (RFC.dom4 ++ encodePoint (r n • B) ++ RFC.publicOf s ++ m) f = f := fun f => by
          refine value_none ?_ f
          by_contra hne
          exact hn ⟨m, rfl, hne⟩
        have hR : shifted F s h r n • B - outNat (h n) • (s • B) = r n • B := by
          rw [hz, smul_B_mod, add_smul, mul_smul, add_sub_cancel_right]
        simp only [hl, realSigner, blindSigner, hv, hR]
        rw [hz]
        rfl

/-- The nonces are determined by the second halves. -/
theorem shifted_inj (F : Forger) (s : ℕ) (h : ℕ → Out) (r r' : ℕ → ℕ) (n : ℕ) (hr : ∀ i < n, r i < q) (hr' : ∀ i < n, r' i < q)
    (hb : ∀ i < n, ¬ Hit F s h r i) (hb' : ∀ i < n, ¬ Hit F s h r' i) (e : ∀ i < n, shifted F s h r i = shifted F s h r' i) : ∀ i < n, r i = r' i := by
  intro i hi
  have h1 := blind_eq F s h r i fun j hj => hb j (by omega)
  have h2 := blind_eq F s h r' i fun j hj => hb' j (by omega)
  have h3 : play F (fun i => realSigner s (r i)) h i = play F (fun i => realSigner s (r' i)) h i := by
    rw [h1, h2]
    exact play_signers F h i fun j hj => by rw [e j (by omega)]
  have h4 := e i hi
  rw [shifted, shifted, h3] at h4
  split at h4
  · have : r i ≡ r' i [MOD q] := Nat.ModEq.add_right_cancel' _ h4
    rw [Nat.ModEq, Nat.mod_eq_of_lt (hr i hi), Nat.mod_eq_of_lt (hr' i hi)] at this
    exact this
  · exact h4

theorem shifted_lt (F : Forger) (s : ℕ) (h : ℕ → Out) (r : ℕ → ℕ) (i : ℕ) (hr : r i < q) : shifted F s h r i < q := by
  rw [shifted]
  split
  · exact Nat.mod_lt _ q_pos
  · exact hr

theorem event_congr (P : Game → Out → Prop) {F : Forger} {S S' : ℕ → Signer} {n : ℕ} {h : ℕ → Out} (e : play F S h n = play F S' h n) :
    P (play F S h n) (h n) ↔ P (play F S' h n) (h n) := by
  rw [e]

/-- Nonces matter only modulo the group order. -/
theorem realSigner_mod (s r : ℕ) : realSigner s (r % q) = realSigner s r := by
  funext t f m
  simp only [realSigner, smul_B_mod]
  congr 3
  rw [Nat.add_mod, Nat.mod_mod, ← Nat.add_mod]

theorem table_length (F : Forger) (S : ℕ → Signer) (h : ℕ → Out) : ∀ n, (play F S h n).table.length ≤ n
  | 0 => Nat.le_refl _
  | n + 1 => by
    have ih := table_length F S h n
    rw [play, Game.round]
    split
    · simp only [List.length_append, List.length_cons, List.length_nil]; omega
    · split
      · exact ih.trans (Nat.le_succ n)
      · simp only [List.length_append, List.length_cons, List.length_nil]; omega

/-! ## Counting -/

open Finset Classical in
/-- If for each function at most `t` values at `i` have a property, so do at most `t` times the number of functions with one argument less. -/
theorem card_update {β : Type} [Fintype β] {n : ℕ} (i : Fin n) (P : (Fin n → β) → Prop) (t : ℕ)
    (h : ∀ f, (univ.filter fun x => P (Function.update f i x)).card ≤ t) : (univ.filter P).card ≤ t * Fintype.card β ^ (n - 1) := by
  rcases isEmpty_or_nonempty β with hβ | hβ
  · have : IsEmpty (Fin n → β) := ⟨fun f => hβ.elim (f i)⟩
    rw [univ_eq_empty, filter_empty, card_empty]
    exact Nat.zero_le _
  let b : β := Classical.choice hβ
  have h1 : (univ.filter P).card ≤ ∑ g ∈ univ.filter (fun g : Fin n → β => g i = b), (univ.filter fun x => P (Function.update g i x)).card := by
    rw [← card_sigma]
    refine card_le_card_of_injOn (fun f => ⟨Function.update f i b, f i⟩) ?_ ?_
    · intro f hf
      simp only [coe_filter, mem_univ, true_and, Set.mem_ofPred_eq] at hf
      simp only [coe_sigma, Set.mem_sigma_iff, coe_filter, mem_univ, true_and, Set.mem_ofPred_eq, Function.update_self, Function.update_idem,
        Function.update_eq_self]
      exact hf
    · intro f _ f' _ e
      simp only [Sigma.mk.injEq, heq_eq_eq] at e
      funext j
      by_cases hj : j = i
      · rw [hj]; exact e.2
      · have := congrFun e.1 j
        rwa [Function.update_of_ne hj, Function.update_of_ne hj] at this
  have h2 : (univ.filter fun g : Fin n → β => g i = b).card = Fintype.card β ^ (n - 1) := by
    have := card_answer i ({b} : Finset β)
    simpa using this
  refine h1.trans ?_
  rw [← h2, mul_comm]
  exact Finset.sum_le_card_nsmul _ _ _ fun g _ => h g

open Finset Classical in
theorem ncard_prod_right {α β : Type} [Fintype α] [Fintype β] (P : α × β → Prop) : Set.ncard {x | P x} = ∑ b, Set.ncard {a | P (a, b)} := by
  have e : ∀ {γ : Type} [Fintype γ] (Q : γ → Prop), Set.ncard {x | Q x} = (univ.filter Q).card := by
    intro γ _ Q
    rw [← Set.ncard_coe_finset]
    congr 1
    ext x
    simp
  rw [e]
  simp only [e]
  rw [← card_sigma]
  refine card_bij' (fun x _ => ⟨x.2, x.1⟩) (fun y _ => (y.2, y.1)) ?_ ?_ ?_ ?_ <;> simp

open Finset Classical in
theorem ncard_prod_left {α β : Type} [Fintype α] [Fintype β] (P : α × β → Prop) : Set.ncard {x | P x} = ∑ a, Set.ncard {b | P (a, b)} := by
  have e : ∀ {γ : Type} [Fintype γ] (Q : γ → Prop), Set.ncard {x | Q x} = (univ.filter Q).card := by
    intro γ _ Q
    rw [← Set.ncard_coe_finset]
    congr 1
    ext x
    simp
  rw [e]
  simp only [e]
  rw [← card_sigma]
  refine card_bij' (fun x _ => ⟨x.1, x.2⟩) (fun y _ => (y.1, y.2)) ?_ ?_ ?_ ?_ <;> simp

theorem ncard_fiber {α β : Type} [Fintype α] [Fintype β] (f : α → β) (P : Set α) (Q : Set β) (h : ∀ a ∈ P, f a ∈ Q) (M : ℕ)
    (hM : ∀ b, Set.ncard {a | f a = b} ≤ M) : P.ncard ≤ M * Q.ncard := by
  classical
  rw [Set.ncard_eq_toFinset_card' P, Set.ncard_eq_toFinset_card' Q]
  refine Finset.card_le_mul_card_image_of_maps_to (f := f) (fun a ha => ?_) M fun b _ => ?_
  · rw [Set.mem_toFinset] at ha ⊢
    exact h a ha
  · refine le_trans ?_ (hM b)
    rw [← Set.ncard_coe_finset]
    refine Set.ncard_le_ncard ?_ (Set.toFinite _)
    intro a ha
    simp only [Finset.coe_filter, Set.mem_ofPred_eq] at ha
    exact ha.2

/-- Numbers below the group order, continued. -/
def coin {n : ℕ} (z : Fin n → Fin q) : ℕ → ℕ := fun i => if hi : i < n then (z ⟨i, hi⟩).1 else 0

theorem coin_lt {n : ℕ} (z : Fin n → Fin q) (i : ℕ) : coin z i < q := by
  rw [coin]
  split
  · exact (z _).2
  · exact q_pos

theorem layout_blind (A : E) (z : ℕ → ℕ) : Layout (fun i => blindSigner A (z i)) (encodePoint A) :=
  fun _ _ _ _ => ⟨_, encodePoint_length _, rfl, List.take_left' (encodePoint_length _)⟩

/-- For a given tape there are few lists of nonces with a hit in round `i`. -/
theorem few_hits (F : Forger) (s n : ℕ) (h : ℕ → Out) (i : Fin n) :
    Set.ncard {r : Fin n → Fin q | Hit F s h (coin r) i.1} ≤ n * q ^ (n - 1) := by
  classical
  have hq : Fintype.card (Fin q) = q := Fintype.card_fin q
  have key := card_update i (fun r : Fin n → Fin q => Hit F s h (coin r) i.1) n ?_
  · rw [hq] at key
    refine le_trans (le_of_eq ?_) key
    rw [← Set.ncard_coe_finset]
    congr 1
    ext r
    simp
  · intro f
    have hplay : ∀ x, play F (fun j => realSigner s (coin (Function.update f i x) j)) h i.1 = play F (fun j => realSigner s (coin f j)) h i.1 := by
      intro x
      refine play_signers F h _ fun j hj => ?_
      have : coin (Function.update f i x) j = coin f j := by
        rw [coin, coin]
        split
        · rw [Function.update_of_ne]
          intro e
          rw [← e] at hj
          exact absurd hj (Nat.lt_irrefl _)
        · rfl
      rw [this]
    have hcoin : ∀ x, coin (Function.update f i x) i.1 = x.1 := by
      intro x
      rw [coin, dif_pos i.2, Function.update_self]
    have hlen := table_length F (fun j => realSigner s (coin f j)) h i.1
    generalize hg : play F (fun j => realSigner s (coin f j)) h i.1 = g at *
    cases hm : newSign F g with
    | none =>
      rw [Finset.card_eq_zero.mpr]
      · exact Nat.zero_le _
      · rw [Finset.filter_eq_empty_iff]
        rintro x - ⟨m, h1, -⟩
        rw [hplay, hm] at h1
        cases h1
    | some m =>
      refine le_trans (Finset.card_le_card_of_injOn (t := (g.table.map Prod.fst).toFinset)
        (fun x => RFC.dom4 ++ encodePoint (x.1 • B) ++ RFC.publicOf s ++ m) ?_ ?_) ?_
      · intro x hx
        simp only [Finset.coe_filter, Finset.mem_univ, true_and, Set.mem_ofPred_eq] at hx
        obtain ⟨m', h1, h2⟩ := hx
        rw [hplay, hm] at h1
        obtain rfl := Option.some.inj h1
        rw [hplay, hcoin] at h2
        rw [List.coe_toFinset, Set.mem_ofPred_eq, List.mem_map]
        by_contra hne
        apply h2
        rw [List.lookup_eq_none_iff]
        intro y hy
        rw [bne_iff_ne]
        intro e
        exact hne ⟨y, hy, e.symm⟩
      · intro x _ x' _ e
        have := (layout_inj (encodePoint_length _) (encodePoint_length _) e).1
        have := smul_B_inj.mp (encodePoint_inj.mp this)
        rw [Nat.mod_eq_of_lt x.2, Nat.mod_eq_of_lt x'.2] at this
        exact Fin.ext this
      · refine (List.toFinset_card_le _).trans ?_
        rw [List.length_map]
        exact hlen.trans i.2.le

/-! ## The theorem -/

theorem card_out [Fintype Out] : Fintype.card Out = 2 ^ 912 := by
  have h1 := ncard_strings 114 fun _ => True
  simp only [and_true] at h1
  rw [← Nat.card_eq_fintype_card, ← Set.ncard_univ, show (Set.univ : Set Out) = {h : Fin 114 → Byte | True} by ext; simp, h1,
    show {v : ℕ | v < 256 ^ 114} = ((Finset.range (256 ^ 114) : Finset ℕ) : Set ℕ) by ext v; simp, Set.ncard_coe_finset, Finset.card_range]
  norm_num

/-- C86, second half. The forger who gets blind signatures gives the secret. -/
theorem blind_count (F : Forger) (shake : Xof) (s n : ℕ) :
    let blind := {x : (Fin (n + 1) → Out) × (Fin n → Fin q) |
      Wins ρ F (fun i => blindSigner (s • B) (coin x.2 i)) shake (RFC.publicOf s) n (extend x.1)}
    let solves := {x : ((Fin (n + 1) → Out) × (Fin (n + 1) → Out)) × (Fin n → Fin q) |
      extract F (fun i => blindSigner (s • B) (coin x.2 i)) (RFC.publicOf s) n (extend x.1.1) (extend x.1.2) % q = s % q}
    blind.ncard ^ 2 ≤ q ^ n * ((n + 1) * (solves.ncard + blind.ncard * ((2 ^ 912 / q + 1) * 2 ^ (912 * n)))) := by
  intro blind solves
  have hfin : Finite Byte := Finite.of_injective _ BitVec.toFin_injective
  let _ : Fintype Out := Fintype.ofFinite Out
  have key : ∀ z : Fin n → Fin q, _ := fun z => fork_count (ρ := ρ) F (fun i => blindSigner (s • B) (coin z i)) shake (RFC.publicOf s) (s • B)
    (decodesTo_iff.mpr rfl) (layout_blind _ _) n
  simp only [cleared_smul_B, smul_B_inj] at key
  generalize (2 ^ 912 / q + 1) * 2 ^ (912 * n) = K at *
  have hb : blind.ncard = ∑ z, Set.ncard {h : Fin (n + 1) → Out | Wins ρ F (fun i => blindSigner (s • B) (coin z i)) shake (RFC.publicOf s) n (extend h)} :=
    ncard_prod_right _
  have hs : solves.ncard = ∑ z, Set.ncard {x : (Fin (n + 1) → Out) × (Fin (n + 1) → Out) |
      extract F (fun i => blindSigner (s • B) (coin z i)) (RFC.publicOf s) n (extend x.1) (extend x.2) % q = s % q} := ncard_prod_right _
  rw [hb, hs]
  have hc : (Finset.univ : Finset (Fin n → Fin q)).card = q ^ n := by
    rw [Finset.card_univ, Fintype.card_fun, Fintype.card_fin, Fintype.card_fin]
  refine (sq_sum_le_card_mul_sum_sq).trans ?_
  rw [hc, Finset.sum_mul, ← Finset.sum_add_distrib, Nat.cast_id]
  refine Nat.mul_le_mul_left _ ?_
  rw [Finset.mul_sum]
  refine Finset.sum_le_sum fun z _ => (key z).trans (le_of_eq ?_)
  simp only [eq_comm]

/-- The number of lists of outputs that give the same nonces modulo the group order. -/
theorem few_outputs [Fintype Out] [DecidableEq Out] (n : ℕ) (r : Fin n → Fin q) :
    Set.ncard {ρ : Fin n → Out | ∀ i, outNat (ρ i) % q = (r i).1} ≤ (2 ^ 912 / q + 1) ^ n := by
  classical
  have e : {ρ : Fin n → Out | ∀ i, outNat (ρ i) % q = (r i).1} =
      ((Fintype.piFinset fun i => Finset.univ.filter fun o : Out => outNat o % q = (r i).1 : Finset (Fin n → Out)) : Set (Fin n → Out)) := by
    ext ρ
    simp
  rw [e, Set.ncard_coe_finset, Fintype.card_piFinset]
  have hM : ∀ i, (Finset.univ.filter fun o : Out => outNat o % q = (r i).1).card ≤ 2 ^ 912 / q + 1 := by
    intro i
    rw [← Set.ncard_coe_finset]
    have : ((Finset.univ.filter fun o : Out => outNat o % q = (r i).1 : Finset Out) : Set Out) =
        {b : Fin 114 → Byte | leNat (List.ofFn b) % q = (r i).1} := by
      ext b
      rw [Finset.coe_filter, Set.mem_ofPred_eq, Set.mem_ofPred_eq]
      exact ⟨fun e => e.2, fun e => ⟨Finset.mem_univ _, e⟩⟩
    rw [this, ncard_strings 114 fun v => v % q = (r i).1, show 256 ^ 114 = 2 ^ 912 by norm_num]
    rcases ncard_residue (2 ^ 912) q (r i).1 q_pos (r i).2 with h | h
    · rw [h]; exact Nat.le_succ _
    · rw [h]
  generalize 2 ^ 912 / q + 1 = M at *
  refine (Finset.prod_le_pow_card _ _ M fun i _ => hM i).trans (le_of_eq ?_)
  rw [Finset.card_univ, Fintype.card_fin]

/-- C86, first half. What happens in the game with the signer happens almost as often when the signatures are made blindly. -/
theorem real_count (P : Game → Out → Prop) (F : Forger) (s n : ℕ) :
    let real := {x : (Fin (n + 1) → Out) × (Fin n → Out) | P (play F (fun i => realSigner s (outNat (extend x.2 i))) (extend x.1) n) (extend x.1 n)}
    let blind := {x : (Fin (n + 1) → Out) × (Fin n → Fin q) | P (play F (fun i => blindSigner (s • B) (coin x.2 i)) (extend x.1) n) (extend x.1 n)}
    real.ncard ≤ (2 ^ 912 / q + 1) ^ n * (blind.ncard + 2 ^ (912 * (n + 1)) * (n * (n * q ^ (n - 1)))) := by
  classical
  intro real blind
  have hfin : Finite Byte := Finite.of_injective _ BitVec.toFin_injective
  let _ : Fintype Out := Fintype.ofFinite Out
  -- nonces modulo the order
  let ideal := {x : (Fin (n + 1) → Out) × (Fin n → Fin q) | P (play F (fun i => realSigner s (coin x.2 i)) (extend x.1) n) (extend x.1 n)}
  let red : (Fin n → Out) → Fin n → Fin q := fun ρ i => ⟨outNat (ρ i) % q, Nat.mod_lt _ q_pos⟩
  have hred : ∀ h ρ, (h, ρ) ∈ real ↔ (h, red ρ) ∈ ideal := by
    intro h ρ
    refine event_congr P (play_signers F _ n fun i hi => ?_)
    show realSigner s (outNat (extend ρ i)) = realSigner s (coin (red ρ) i)
    rw [coin, dif_pos hi, extend, dif_pos hi, realSigner_mod]
  have h1 : real.ncard ≤ (2 ^ 912 / q + 1) ^ n * ideal.ncard := by
    have e1 : real.ncard = ∑ h, Set.ncard {ρ | (h, ρ) ∈ real} := ncard_prod_left _
    have e2 : ideal.ncard = ∑ h, Set.ncard {r | (h, r) ∈ ideal} := ncard_prod_left _
    rw [e1, e2, Finset.mul_sum]
    refine Finset.sum_le_sum fun h _ => ?_
    refine ncard_fiber red {ρ | (h, ρ) ∈ real} {r | (h, r) ∈ ideal} (fun ρ hρ => (hred h ρ).mp hρ) _ fun r => ?_
    refine le_trans (Set.ncard_le_ncard ?_ (Set.toFinite _)) (few_outputs n r)
    intro ρ e i
    have := congrFun (show red ρ = r from e) i
    rw [← this]
  refine h1.trans (Nat.mul_le_mul_left _ ?_)
  -- hits are few, and without hits the two games are the same
  let good := {x : (Fin (n + 1) → Out) × (Fin n → Fin q) | x ∈ ideal ∧ ∀ i < n, ¬ Hit F s (extend x.1) (coin x.2) i}
  let bad := {x : (Fin (n + 1) → Out) × (Fin n → Fin q) | ∃ i : Fin n, Hit F s (extend x.1) (coin x.2) i.1}
  have hsub : ideal ⊆ good ∪ bad := by
    intro x hx
    by_cases hb : ∃ i : Fin n, Hit F s (extend x.1) (coin x.2) i.1
    · exact Or.inr hb
    · exact Or.inl ⟨hx, fun i hi hh => hb ⟨⟨i, hi⟩, hh⟩⟩
  have hgood : good.ncard ≤ blind.ncard := by
    let sh : (Fin (n + 1) → Out) × (Fin n → Fin q) → (Fin (n + 1) → Out) × (Fin n → Fin q) := fun x =>
      (x.1, fun i => ⟨shifted F s (extend x.1) (coin x.2) i.1, shifted_lt _ _ _ _ _ (coin_lt _ _)⟩)
    have hsh : ∀ x, ∀ i < n, coin (sh x).2 i = shifted F s (extend x.1) (coin x.2) i := by
      intro x i hi
      rw [coin, dif_pos hi]
    refine Set.ncard_le_ncard_of_injOn sh ?_ ?_ (Set.toFinite _)
    · rintro x ⟨hx, hb⟩
      have e : play F (fun i => realSigner s (coin x.2 i)) (extend x.1) n = play F (fun i => blindSigner (s • B) (coin (sh x).2 i)) (extend x.1) n := by
        rw [blind_eq F s (extend x.1) (coin x.2) n hb]
        exact play_signers F _ n fun i hi => by rw [hsh x i hi]
      exact (event_congr P e).mp hx
    · rintro ⟨h, r⟩ ⟨-, hb⟩ ⟨h', r'⟩ ⟨-, hb'⟩ e
      have e1 : h = h' := congrArg Prod.fst e
      subst e1
      have := shifted_inj F s (extend h) (coin r) (coin r') n (fun i _ => coin_lt _ _) (fun i _ => coin_lt _ _) hb hb' fun i hi => by
        rw [← hsh (h, r) i hi, ← hsh (h, r') i hi, e]
      refine Prod.ext rfl (funext fun i => Fin.ext ?_)
      have := this i.1 i.2
      rwa [coin, coin, dif_pos i.2, dif_pos i.2] at this
  have hbad : bad.ncard ≤ 2 ^ (912 * (n + 1)) * (n * (n * q ^ (n - 1))) := by
    have e1 : bad.ncard = ∑ h, Set.ncard {r : Fin n → Fin q | ∃ i : Fin n, Hit F s (extend h) (coin r) i.1} := ncard_prod_left _
    have e2 : (Finset.univ : Finset (Fin (n + 1) → Out)).card = 2 ^ (912 * (n + 1)) := by
      rw [Finset.card_univ, Fintype.card_fun, Fintype.card_fin, card_out, ← pow_mul]
    rw [e1, ← e2]
    refine Finset.sum_le_card_nsmul _ _ _ fun h _ => ?_
    have e3 : {r : Fin n → Fin q | ∃ i : Fin n, Hit F s (extend h) (coin r) i.1} = ⋃ i : Fin n, {r : Fin n → Fin q | Hit F s (extend h) (coin r) i.1} := by
      ext r
      simp
    rw [e3]
    refine (Set.ncard_iUnion_le_of_fintype _).trans ?_
    refine (Finset.sum_le_card_nsmul _ _ _ fun i _ => few_hits F s n (extend h) i).trans (le_of_eq ?_)
    rw [Finset.card_univ, Fintype.card_fin, smul_eq_mul]
  exact (Set.ncard_le_ncard hsub (Set.toFinite _)).trans ((Set.ncard_union_le _ _).trans (Nat.add_le_add hgood hbad))

end Ed448
