import Verif.Properties.AsIs
import Verif.Properties.Distinct
import Verif.Spec.Owner

/-!
# C98: nobody finds a signature that fits two messages or two keys
-/

namespace Ed448

set_option exponentiation.threshold 1000

/-! ## Values of a random function for strings that are chosen one after the other -/

theorem chance_none {α : Type} {P : α → Prop} (h : ∀ a, ¬ P a) : chance {a | P a} = 0 := by
  rw [chance, show {a | P a} = (∅ : Set α) from Set.eq_empty_of_forall_notMem h, Set.ncard_empty, Nat.cast_zero, zero_div]

/-- As `chance_resample`, for functions with the property `G`. -/
theorem chance_resample_on {ι β : Type} [DecidableEq ι] [Finite ι] [Finite β] [Nonempty β] (G : (ι → β) → Prop) (X : (ι → β) → ι) (Q : (ι → β) → β → Prop)
    (hG : ∀ f b, G f → G (Function.update f (X f) b)) (hX : ∀ f b, G f → X (Function.update f (X f) b) = X f)
    (hQ : ∀ f b, G f → Q (Function.update f (X f) b) = Q f) (c : ℚ) (hc : 0 ≤ c) (h : ∀ f, G f → chance {b | Q f b} ≤ c) :
    chance {f | G f ∧ Q f (f (X f))} ≤ c := by
  classical
  have e : chance {f | G f ∧ Q f (f (X f))} = chance {x : β × (ι → β) | G x.2 ∧ Q x.2 x.1} := by
    rw [← chance_snd (α := β) {f | G f ∧ Q f (f (X f))}]
    let σ : β × (ι → β) → β × (ι → β) := fun x => if G x.2 then (x.2 (X x.2), Function.update x.2 (X x.2) x.1) else x
    have hσ : Function.Involutive σ := by
      rintro ⟨b, f⟩
      by_cases g : G f
      · have e1 : σ (b, f) = (f (X f), Function.update f (X f) b) := if_pos g
        have e2 : σ (f (X f), Function.update f (X f) b) = (Function.update f (X f) b (X (Function.update f (X f) b)),
            Function.update (Function.update f (X f) b) (X (Function.update f (X f) b)) (f (X f))) := if_pos (hG f b g)
        rw [e1, e2, hX f b g, Function.update_self, Function.update_idem, Function.update_eq_self]
      · have e1 : σ (b, f) = (b, f) := if_neg g
        rw [e1, e1]
    rw [← chance_equiv hσ.toPerm fun x => G x.2 ∧ Q x.2 x.1]
    refine chance_congr fun x => ?_
    show G x.2 ∧ Q x.2 (x.2 (X x.2)) ↔ G (σ x).2 ∧ Q (σ x).2 (σ x).1
    by_cases g : G x.2
    · have e1 : σ x = (x.2 (X x.2), Function.update x.2 (X x.2) x.1) := if_pos g
      rw [e1, hQ _ _ g]
      exact and_congr_left fun _ => ⟨fun _ => hG _ _ g, fun _ => g⟩
    · have e1 : σ x = x := if_neg g
      rw [e1]
      exact ⟨fun h => absurd h.1 g, fun h => absurd h.1 g⟩
  rw [e]
  refine chance_prod_le (fun x : β × (ι → β) => G x.2 ∧ Q x.2 x.1) c fun f => ?_
  by_cases g : G f
  · exact (chance_imp fun b hb => hb.2).trans (h f g)
  · refine le_trans (le_of_eq ?_) hc
    exact chance_none fun b hb => g hb.1

/-- The values for strings that are chosen by `next`. -/
def replies (next : List (List Byte) → List Byte) (xof : Xof) : ℕ → List (List Byte)
  | 0 => []
  | n + 1 => replies next xof n ++ [RFC.hash xof (next (replies next xof n)) 114]

/-- The string that is chosen after `n` values. -/
def chosen (next : List (List Byte) → List Byte) (xof : Xof) (n : ℕ) : List Byte := next (replies next xof n)

theorem replies_length (next : List (List Byte) → List Byte) (xof : Xof) : ∀ n, (replies next xof n).length = n
  | 0 => rfl
  | n + 1 => by rw [replies, List.length_append, replies_length next xof n]; rfl

section

variable {L : ℕ} {next : List (List Byte) → List Byte}

open Classical in
theorem replies_update (f : Short L → Out) (x : Short L) (b : Out) : ∀ j, (∀ i < j, chosen next (hashOf f) i ≠ x.1) →
    replies next (hashOf (Function.update f x b)) j = replies next (hashOf f) j
  | 0, _ => rfl
  | j + 1, h => by
    have ih := replies_update f x b j fun i hi => h i (by omega)
    rw [replies, replies, ih, hash_update]
    exact h j (Nat.lt_succ_self j)

open Classical in
theorem chosen_update (f : Short L → Out) (x : Short L) (b : Out) (j : ℕ) (h : ∀ i < j, chosen next (hashOf f) i ≠ x.1) :
    chosen next (hashOf (Function.update f x b)) j = chosen next (hashOf f) j := by
  rw [chosen, chosen, replies_update f x b j h]

theorem chosen_short (hn : ∀ l, (next l).length ≤ L) (xof : Xof) (j : ℕ) : chosen next xof j ∈ Short L := hn _

/-- The string that is chosen after `j` values was not chosen before. -/
def Fresh (next : List (List Byte) → List Byte) (xof : Xof) (j : ℕ) : Prop := ∀ i < j, chosen next xof i ≠ chosen next xof j

open Classical in
/-- The value for a new string, compared with the value for an earlier one. -/
theorem chance_pair (hn : ∀ l, (next l).length ≤ L) (T : List Byte → Out → List Byte → Out → Prop) (c : ℚ) (hc : 0 ≤ c)
    (hT : ∀ s o s', chance {o' | T s o s' o'} ≤ c) (i j : ℕ) (hij : i < j) :
    chance {f : Short L → Out | Fresh next (hashOf f) j ∧ T (chosen next (hashOf f) i) (outOf (hashOf f) (chosen next (hashOf f) i)) (chosen next (hashOf f) j)
      (outOf (hashOf f) (chosen next (hashOf f) j))} ≤ c := by
  have h := chance_resample_on (fun f : Short L → Out => Fresh next (hashOf f) j) (fun f => ⟨chosen next (hashOf f) j, chosen_short hn _ j⟩)
    (fun f o => T (chosen next (hashOf f) i) (f ⟨chosen next (hashOf f) i, chosen_short hn _ i⟩) (chosen next (hashOf f) j) o) ?_ ?_ ?_ c hc fun f _ => hT _ _ _
  · refine le_trans (le_of_eq (chance_congr fun f => ?_)) h
    rw [← outOf_hashOf f ⟨chosen next (hashOf f) j, chosen_short hn _ j⟩, ← outOf_hashOf f ⟨chosen next (hashOf f) i, chosen_short hn _ i⟩]
  all_goals
    intro f b hf
    have hle : ∀ k ≤ j, chosen next (hashOf (Function.update f ⟨chosen next (hashOf f) j, chosen_short hn _ j⟩ b)) k = chosen next (hashOf f) k := fun k hk =>
      chosen_update f _ b k fun i hi => hf i (by omega)
  · intro k hk
    rw [hle k hk.le, hle j le_rfl]
    exact hf k hk
  · exact Subtype.ext (hle j le_rfl)
  · funext o
    simp only [hle i hij.le, hle j le_rfl]
    rw [Function.update_of_ne]
    exact fun e => hf i hij (congrArg Subtype.val e)

theorem first_time (xof : Xof) (i : ℕ) : ∃ k ≤ i, chosen next xof k = chosen next xof i ∧ Fresh next xof k := by
  classical
  have h : ∃ k, chosen next xof k = chosen next xof i := ⟨i, rfl⟩
  refine ⟨Nat.find h, Nat.find_min' h rfl, Nat.find_spec h, fun k hk e => Nat.find_min h hk ?_⟩
  rw [e]
  exact Nat.find_spec h

/-- Two of the values for `N` strings. -/
theorem chance_some_pair (hn : ∀ l, (next l).length ≤ L) (T : List Byte → Out → List Byte → Out → Prop) (c : ℚ) (hc : 0 ≤ c)
    (hs : ∀ s o s' o', T s o s' o' → T s' o' s o) (hT : ∀ s o s', chance {o' | T s o s' o'} ≤ c) (N : ℕ) :
    chance {f : Short L → Out | ∃ i < N, ∃ j < N, chosen next (hashOf f) i ≠ chosen next (hashOf f) j ∧
      T (chosen next (hashOf f) i) (outOf (hashOf f) (chosen next (hashOf f) i)) (chosen next (hashOf f) j) (outOf (hashOf f) (chosen next (hashOf f) j))} ≤ N ^ 2 * c := by
  have h := chance_exists (α := Short L → Out) (ι := Fin N × Fin N) (fun x f => x.1 < x.2 ∧ Fresh next (hashOf f) x.2 ∧
    T (chosen next (hashOf f) x.1) (outOf (hashOf f) (chosen next (hashOf f) x.1)) (chosen next (hashOf f) x.2) (outOf (hashOf f) (chosen next (hashOf f) x.2))) c
    fun x => ?_
  · rw [Fintype.card_prod, Fintype.card_fin, Nat.cast_mul, ← sq] at h
    refine le_trans (chance_imp fun f hf => ?_) h
    obtain ⟨i, hi, j, hj, hne, ht⟩ := hf
    obtain ⟨i', h1, h2, h3⟩ := first_time (next := next) (hashOf f) i
    obtain ⟨j', k1, k2, k3⟩ := first_time (next := next) (hashOf f) j
    rw [← h2, ← k2] at ht hne
    rcases Nat.lt_trichotomy i' j' with h | h | h
    · exact ⟨(⟨i', by omega⟩, ⟨j', by omega⟩), h, k3, ht⟩
    · exact absurd (by rw [h]) hne
    · exact ⟨(⟨j', by omega⟩, ⟨i', by omega⟩), h, h3, hs _ _ _ _ ht⟩
  · by_cases hx : x.1 < x.2
    · exact (chance_imp fun f hf => hf.2).trans (chance_pair hn T c hc hT x.1 x.2 hx)
    · refine le_trans (le_of_eq ?_) hc
      exact chance_none fun f hf => hx hf.1

end

/-! ## Challenges -/

/-- The keys in two strings that are hashed for challenges, multiplied by the challenges, agree up to points of small order. -/
def Meet (s : List Byte) (o : Out) (s' : List Byte) (o' : Out) : Prop :=
  ∃ A A' : E, 4 • A ≠ 0 ∧ 4 • A' ≠ 0 ∧ (s.drop 67).take 57 = encodePoint A ∧ (s'.drop 67).take 57 = encodePoint A' ∧ 4 • (outNat o • A) = 4 • (outNat o' • A')

theorem Meet.symm {s s' : List Byte} {o o' : Out} : Meet s o s' o' → Meet s' o' s o := fun ⟨A, A', h1, h2, h3, h4, h5⟩ => ⟨A', A, h2, h1, h4, h3, h5.symm⟩

theorem chance_meet (s : List Byte) (o : Out) (s' : List Byte) : chance {o' | Meet s o s' o'} ≤ 1 / q + 1 / 2 ^ 912 := by
  rcases Classical.em (∃ o', Meet s o s' o') with ⟨o₀, A, A', h1, h2, h3, h4, h5⟩ | h
  · refine (chance_imp fun o' ho => ?_).trans (chance_residue (outNat o₀ % q))
    obtain ⟨C, C', k1, k2, k3, k4, k5⟩ := ho
    rw [h3, encodePoint_inj] at k3
    rw [h4, encodePoint_inj] at k4
    subst k3 k4
    rw [h5, smul_four_inj h2] at k5
    exact k5.symm
  · refine le_trans (le_of_eq ?_) (by positivity : (0 : ℚ) ≤ 1 / q + 1 / 2 ^ 912)
    exact chance_none fun o' ho => h ⟨o', ho⟩

/-- The strings that are hashed have at most `L` bytes. -/
def Searcher.Bounded (G : Searcher) (L : ℕ) : Prop :=
  ∀ l, (G.next l).length ≤ L ∧ (G.claim l).msg.length + 124 ≤ L ∧ (G.claim l).msg'.length + 124 ≤ L

/-- The search with the two strings that are hashed for the claim. -/
def Searcher.all (G : Searcher) (n : ℕ) (l : List (List Byte)) : List Byte :=
  if l.length < n then G.next l
  else
    let c := G.claim (l.take n)
    if l.length = n then challengeString (c.pk.take 57) c.msg c.sig else challengeString (c.pk'.take 57) c.msg' c.sig

theorem Searcher.all_length {G : Searcher} {L : ℕ} (hG : G.Bounded L) (n : ℕ) (l : List (List Byte)) : (G.all n l).length ≤ L := by
  have hd : RFC.dom4.length = 10 := by decide
  unfold Searcher.all
  dsimp only
  split
  · exact (hG l).1
  · have := hG (l.take n)
    split <;> rw [challengeString, List.length_append, List.length_append, List.length_append, hd, List.length_take, List.length_take] <;> omega

theorem Searcher.all_seen (G : Searcher) (n : ℕ) (xof : Xof) : ∀ j ≤ n, replies (G.all n) xof j = G.seen xof j
  | 0, _ => rfl
  | j + 1, hj => by
    have ih := G.all_seen n xof j (by omega)
    have hl : (G.seen xof j).length = j := by rw [← ih, replies_length]
    rw [replies, ih, Searcher.seen, Searcher.all, if_pos (by omega)]

theorem challengeString_drop (pk m sig : List Byte) (hp : pk.length = 57) (hs : 57 ≤ sig.length) : ((challengeString pk m sig).drop 67).take 57 = pk := by
  have hd : RFC.dom4.length = 10 := by decide
  rw [challengeString, List.append_assoc, List.drop_left' (by rw [List.length_append, hd, List.length_take]; omega), List.take_left' hp]

theorem outOf_challenge (xof : Xof) (pk m sig : List Byte) : outNat (outOf xof (challengeString pk m sig)) = RFC.challenge xof (sig.take 57) pk m := by
  rw [outNat_outOf, RFC.challenge, challengeString]

/-- C98. Somebody with unlimited computing power asks for `n` values of a random hash function, and then shows one signature for two different pairs of a public
key and a message. The chance that it is valid for both, in the weaker form of C86, is hardly more than `(n + 2)² / q`. The keys must not be of small order. -/
theorem C98_owner (ρ : Reading) (G : Searcher) (L : ℕ) (hG : G.Bounded L) (n : ℕ) :
    chance {f : Short L → Out | Ambiguous (Loose ρ) G (hashOf f) n} ≤ (n + 2) ^ 2 * (1 / q + 1 / 2 ^ 912) := by
  have h := chance_some_pair (Searcher.all_length hG n) Meet _ (by positivity : (0 : ℚ) ≤ 1 / q + 1 / 2 ^ 912) (fun _ _ _ _ => Meet.symm) chance_meet (n + 2)
  rw [Nat.cast_add, Nat.cast_ofNat] at h
  refine (chance_imp fun f hf => ?_).trans h
  obtain ⟨hne, s1, s2, ⟨l1, A, R, a1, a2, a3⟩, ⟨_, A', R', b1, b2, b3⟩⟩ := hf
  set c := G.claim (G.seen (hashOf f) n) with hc
  have e0 := G.all_seen n (hashOf f) n le_rfl
  have hl : (G.seen (hashOf f) n).length = n := by rw [← e0, replies_length]
  have ep : c.pk = encodePoint A := decodesTo_iff.mp a1
  have ep' : c.pk' = encodePoint A' := decodesTo_iff.mp b1
  have lp : c.pk.length = 57 := by rw [ep, encodePoint_length]
  have lp' : c.pk'.length = 57 := by rw [ep', encodePoint_length]
  have e1 : chosen (G.all n) (hashOf f) n = challengeString c.pk c.msg c.sig := by
    rw [chosen, e0, Searcher.all, if_neg (by omega)]
    dsimp only
    rw [if_pos hl, List.take_of_length_le hl.le, ← hc, List.take_of_length_le lp.le]
  have e2 : chosen (G.all n) (hashOf f) (n + 1) = challengeString c.pk' c.msg' c.sig := by
    have hl' := replies_length (G.all n) (hashOf f) (n + 1)
    have ht : (replies (G.all n) (hashOf f) (n + 1)).take n = G.seen (hashOf f) n := by rw [replies, e0, List.take_left' hl]
    rw [chosen, Searcher.all, if_neg (by omega)]
    dsimp only
    rw [if_neg (by omega), ht, ← hc, List.take_of_length_le lp'.le]
  refine ⟨n, by omega, n + 1, by omega, ?_, A, A', fun h => s1 ⟨A, a1, h⟩, fun h => s2 ⟨A', b1, h⟩, ?_, ?_, ?_⟩
  · rw [e1, e2]
    intro e
    rw [challengeString, challengeString, List.append_assoc, List.append_assoc, List.append_assoc, List.append_assoc, List.append_cancel_left_eq,
      List.append_cancel_left_eq] at e
    have := List.append_inj e (lp.trans lp'.symm)
    exact hne (Prod.ext this.1 this.2)
  · rw [e1, challengeString_drop _ _ _ lp (by omega), ep]
  · rw [e2, challengeString_drop _ _ _ lp' (by omega), ep']
  · rw [e1, e2, outOf_challenge, outOf_challenge]
    rw [RFC.Equation] at a3 b3
    rw [a3, ρ.same a2 b2] at b3
    exact add_left_cancel b3

theorem Ambiguous.imp {Ok Ok' : Xof → List Byte → List Byte → List Byte → Prop} {G : Searcher} {xof : Xof} {n : ℕ}
    (h : ∀ pk m sig, Ok xof pk m sig → Ok' xof pk m sig) : Ambiguous Ok G xof n → Ambiguous Ok' G xof n :=
  fun ⟨h1, h2, h3, h4, h5⟩ => ⟨h1, h2, h3, h _ _ _ h4, h _ _ _ h5⟩

theorem small_pairs (n : ℕ) (hn : n < 2 ^ 100) : ((n : ℚ) + 2) ^ 2 * (1 / q + 1 / 2 ^ 912) ≤ 1 / 2 ^ 240 := by
  have h1 : (n : ℚ) + 2 ≤ 2 ^ 101 := by
    have : (n : ℚ) ≤ ((2 ^ 100 : ℕ) : ℚ) := Nat.cast_le.mpr hn.le
    rw [Nat.cast_pow, Nat.cast_ofNat] at this
    refine (add_le_add_left this 2).trans (by norm_num)
  have h2 : (1 : ℚ) / q ≤ 1 / 2 ^ 445 := one_div_le_one_div_of_le (by positivity) q_bounds.1
  calc ((n : ℚ) + 2) ^ 2 * (1 / q + 1 / 2 ^ 912) ≤ (2 ^ 101) ^ 2 * (1 / 2 ^ 445 + 1 / 2 ^ 912) := by
        refine mul_le_mul (pow_le_pow_left₀ (by positivity) h1 2) (add_le_add_left h2 _) (by positivity) (by positivity)
    _ ≤ 1 / 2 ^ 240 := by norm_num

/-- C98, for validity as in RFC 8032, with a number: fewer than `2^100` values of the hash function. -/
theorem C98_valid (G : Searcher) (L : ℕ) (hG : G.Bounded L) (n : ℕ) (hn : n < 2 ^ 100) :
    chance {f : Short L → Out | Ambiguous RFC.Valid G (hashOf f) n} ≤ 1 / 2 ^ 240 :=
  (chance_imp fun _ => Ambiguous.imp fun _ _ _ => valid_loose).trans ((C98_owner plain G L hG n).trans (small_pairs n hn))

/-- C98, for the verifier with the six repairs (C80). -/
theorem C98_repaired (G : Searcher) (L : ℕ) (hG : G.Bounded L) (n : ℕ) (hn : n < 2 ^ 100) :
    chance {f : Short L → Out | Ambiguous (fun xof pk m sig => Repaired.ed448_verify xof pk sig m = .ok (.ok true)) G (hashOf f) n} ≤ 1 / 2 ^ 240 :=
  (chance_imp fun _ => Ambiguous.imp fun _ _ _ h => ((C80_exact _ _ _ _).1.mp h).2).trans (C98_valid G L hG n hn)

/-- The key is one that the library derives from some private key. -/
def Derived (xof : Xof) (pk : List Byte) : Prop := ∃ k A : Arr Byte 57, ed448_derive_public xof k = .ok A ∧ A.1 = pk

/-- C98, for keys that the library derives and a verifier that contains the first repair, the exact comparison. -/
theorem C98_one_repair (r : Repairs) (hr : r.limb15 = true) (G : Searcher) (L : ℕ) (hG : G.Bounded L) (n : ℕ) (hn : n < 2 ^ 100) :
    chance {f : Short L → Out | Ambiguous (fun xof pk m sig => Derived xof pk ∧ r.ed448_verify xof pk sig m = .ok (.ok true)) G (hashOf f) n} ≤ 1 / 2 ^ 240 := by
  refine (chance_imp fun _ => Ambiguous.imp ?_).trans ((C98_owner plain G L hG n).trans (small_pairs n hn))
  rintro _ m sig ⟨⟨k, A, hk, rfl⟩, h⟩
  exact C87_loose r hr _ k A m sig hk h

/-- C98, for keys that the library derives and the verifier as it is: what is added is the chance of a near miss (C96). -/
theorem C98_as_is (G : Searcher) (L : ℕ) (hG : G.Bounded L) (n : ℕ) (hn : n < 2 ^ 100) (u : ℚ)
    (hu : chance {f : Short L → Out | let c := G.claim (G.seen (hashOf f) n); NearMiss (hashOf f) c.pk c.msg c.sig ∨ NearMiss (hashOf f) c.pk' c.msg' c.sig} ≤ u) :
    chance {f : Short L → Out | Ambiguous (fun xof pk m sig => Derived xof pk ∧ ed448_verify xof pk sig m = .ok (.ok true)) G (hashOf f) n} ≤ 1 / 2 ^ 240 + u := by
  have key : ∀ xof pk m sig, Derived xof pk ∧ ed448_verify xof pk sig m = .ok (.ok true) → Loose asRead xof pk m sig ∨ NearMiss xof pk m sig := by
    rintro xof _ m sig ⟨⟨k, A, hk, rfl⟩, h⟩
    rcases Classical.em (Loose asRead xof A.1 m sig) with h' | h'
    · exact Or.inl h'
    · exact Or.inr ((C96_accepted xof k A m sig hk h).1.mpr h')
  refine chance_or ((C98_owner asRead G L hG n).trans (small_pairs n hn)) hu ?_
  rintro f ⟨h1, h2, h3, h4, h5⟩
  rcases key _ _ _ _ h4 with h4 | h4
  · rcases key _ _ _ _ h5 with h5 | h5
    · exact Or.inl ⟨h1, h2, h3, h4, h5⟩
    · exact Or.inr (Or.inr h5)
  · exact Or.inr (Or.inl h4)

/-! ## Keys of small order -/

/-- The signature with the neutral element and zero. -/
noncomputable def emptySig : List Byte := encodePoint 0 ++ leBytes 57 0

/-- C98. The condition on the keys is needed: under the key that stands for the neutral element, one signature is valid for all messages, whatever the hash function. -/
theorem C98_small_order (xof : Xof) (m : List Byte) : RFC.Valid xof (encodePoint 0) m emptySig := by
  have hr : (encodePoint 0).length = 57 := encodePoint_length 0
  have ht : emptySig.take 57 = encodePoint 0 := List.take_left' hr
  have hd : emptySig.drop 57 = leBytes 57 0 := List.drop_left' hr
  have h0 : leNat (leBytes 57 0) = 0 := by rw [leNat_leBytes, Nat.zero_mod]
  refine ⟨by rw [emptySig, List.length_append, hr, leBytes_length], 0, 0, decodesTo_iff.mpr rfl, decodesTo_iff.mpr ht, ?_, ?_⟩
  · rw [hd, h0]
    exact q_pos
  · rw [hd, h0, RFC.Equation]
    simp

/-! ## Concrete cases -/

/-- The event is possible: if all values of the hash function are zero, the base point with 1 is a signature of every message under every key. -/
example (m m' : List Byte) (hm : m ≠ m') : ∃ G : Searcher, ∃ xof : Xof, ∀ n, Ambiguous RFC.Valid G xof n := by
  have hr : (encodePoint (1 • B)).length = 57 := encodePoint_length _
  have hv : ∀ m : List Byte, RFC.Valid (fun _ _ => 0) (encodePoint (1 • B)) m (encodePoint (1 • B) ++ leBytes 57 1) := by
    intro m
    have ht : (encodePoint (1 • B) ++ leBytes 57 1).take 57 = encodePoint (1 • B) := List.take_left' hr
    have hd : (encodePoint (1 • B) ++ leBytes 57 1).drop 57 = leBytes 57 1 := List.drop_left' hr
    have h1 : leNat (leBytes 57 1) = 1 := by rw [leNat_leBytes]; norm_num
    have hc : RFC.challenge (fun _ _ => 0) (encodePoint (1 • B)) (encodePoint (1 • B)) m = 0 := by
      rw [RFC.challenge, RFC.hash]
      exact (by decide +kernel : leNat ((List.range 114).map fun _ => (0 : Byte)) = 0)
    refine ⟨by rw [List.length_append, hr, leBytes_length], 1 • B, 1 • B, decodesTo_iff.mpr rfl, decodesTo_iff.mpr ht, ?_, ?_⟩
    · rw [hd, h1]
      exact (Fact.out : q.Prime).one_lt
    · rw [hd, h1, ht, hc, RFC.Equation, zero_smul, smul_zero, add_zero]
  have hs : ¬ SmallOrder (encodePoint (1 • B)) := by
    rintro ⟨A, hA, h4⟩
    rw [decodesTo_iff, encodePoint_inj] at hA
    subst hA
    refine four_smul_B_ne (n := 1) ?_ h4
    intro h
    have h' : 1 • B = 0 • B := by rw [h, zero_smul]
    rw [smul_B_inj, Nat.mod_eq_of_lt (Fact.out : q.Prime).one_lt, Nat.zero_mod] at h'
    cases h'
  exact ⟨⟨fun _ => [], fun _ => ⟨encodePoint (1 • B), m, encodePoint (1 • B), m', encodePoint (1 • B) ++ leBytes 57 1⟩⟩, fun _ _ => 0, fun n =>
    ⟨fun h => hm (congrArg Prod.snd h), hs, hs, hv m, hv m'⟩⟩

/-- Somebody who has a private key and signs `m` with it asks for whatever they need, and shows the signature for `m'`, too: they are bounded. -/
example (m m' : List Byte) (hm : m.length ≤ 1000) (hm' : m'.length ≤ 1000) (s r : ℕ) :
    Searcher.Bounded ⟨fun _ => challengeString (encodePoint (s • B)) m (encodePoint (r • B)),
      fun l => ⟨encodePoint (s • B), m, encodePoint (s • B), m', encodePoint (r • B) ++ leBytes 57 ((r + leNat (l.getD 0 []) * s) % q)⟩⟩ 1124 := by
  have hd : RFC.dom4.length = 10 := by decide
  refine fun l => ⟨?_, ?_, ?_⟩
  · show (challengeString (encodePoint (s • B)) m (encodePoint (r • B))).length ≤ 1124
    rw [challengeString, List.length_append, List.length_append, List.length_append, hd, List.length_take, encodePoint_length, encodePoint_length]
    omega
  · show m.length + 124 ≤ 1124
    omega
  · show m'.length + 124 ≤ 1124
    omega

end Ed448
