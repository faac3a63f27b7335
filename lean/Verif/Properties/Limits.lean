import Verif.Properties.ManyUsers
import Verif.Properties.OneRepair
import Verif.Properties.Rarely
import Verif.Properties.Strong

/-!
# C95: what the bounds on forgers say for two forgers

One computes discrete logarithms and always succeeds, so the hypotheses of C86 to C89 cannot be left out. For the other one, who guesses, the hypotheses are
proved with small numbers, so that the bound of C89 says something without any assumption.
-/

namespace Ed448

set_option exponentiation.threshold 1000

/-! ## Unlimited computing power -/

open Classical in
/-- A number whose multiple of the base point is the given public key. -/
noncomputable def discreteLog (pk : List Byte) : ℕ := if h : ∃ s : ℕ, encodePoint (s • B) = pk then h.choose else 0

theorem discreteLog_spec (s : ℕ) : encodePoint (discreteLog (encodePoint (s • B)) • B) = encodePoint (s • B) := by
  have h : ∃ t : ℕ, encodePoint (t • B) = encodePoint (s • B) := ⟨s, rfl⟩
  rw [discreteLog, dif_pos h]
  exact h.choose_spec

/-- A forger who asks for one value of the hash function and no signature, and signs `m` with the nonce 1 and the discrete logarithm of the public key. -/
noncomputable def unlimited (m : List Byte) : List Byte → Forger := fun pk =>
  ⟨fun _ => .hash (RFC.dom4 ++ encodePoint (1 • B) ++ pk ++ m),
    fun seen => (m, encodePoint (1 • B) ++ leBytes 57 ((1 + leNat (seen.getD 0 []) * discreteLog pk) % q))⟩

theorem unlimited_bounded (m : List Byte) : Bounded (unlimited m) (m.length + 124) := by
  intro pk hpk seen
  have hd : RFC.dom4.length = 10 := by decide
  refine ⟨fun x hx => ?_, fun m' hm => ?_, Nat.le_refl _⟩
  · obtain rfl := Request.hash.inj hx
    rw [List.length_append, List.length_append, List.length_append, hd, hpk, encodePoint_length]
    omega
  · cases hm

/-- C95. The same forger succeeds for every private key and every hash function. -/
theorem C95_unlimited (m : List Byte) (xof : Xof) (k : Arr Byte 57) : LibForges RFC.Valid (unlimited m) xof k 1 := by
  obtain ⟨pk, k1, k2⟩ := derive_spec xof k
  have hs : encodePoint (discreteLog pk.1 • B) = pk.1 := by rw [k2]; exact discreteLog_spec _
  have hr := encodePoint_length (1 • B)
  have e1 : (unlimited m pk.1).forge (libSeen (unlimited m pk.1) xof k 1) =
      (m, encodePoint (1 • B) ++ leBytes 57 ((1 + RFC.challenge xof (encodePoint (1 • B)) pk.1 m * discreteLog pk.1) % q)) := rfl
  refine ⟨pk, k1, ?_⟩
  rw [e1]
  have ht : ∀ l, (encodePoint (1 • B) ++ l).take 57 = encodePoint (1 • B) := fun l => List.take_left' hr
  have hd : ∀ l, (encodePoint (1 • B) ++ l).drop 57 = l := fun l => List.drop_left' hr
  have hq : ∀ n, leNat (leBytes 57 (n % q)) = n % q := fun n => by
    have := Nat.mod_lt n q_pos
    have := q_lt
    rw [leNat_leBytes, Nat.mod_eq_of_lt (by omega)]
  have hm : ∀ n : ℕ, (n % q) • B = n • B := fun n => smul_B_inj.mpr (Nat.mod_mod _ _)
  refine ⟨(fun i _ h => by cases h), by rw [List.length_append, hr, leBytes_length], discreteLog pk.1 • B, 1 • B, decodesTo_iff.mpr hs.symm, ?_, ?_, ?_⟩
  · exact decodesTo_iff.mpr (ht _)
  · simp only [hd, hq]
    exact Nat.mod_lt _ q_pos
  · simp only [hd, hq, ht]
    rw [RFC.Equation, hm, add_smul, mul_smul, smul_add]

/-- C95. In particular its chance is 1 for a random key and a random hash function. -/
theorem C95_certain (m : List Byte) :
    chance {x : (Fin 57 → Byte) × (Short (m.length + 124) → Out) | LibForges RFC.Valid (unlimited m) (hashOf x.2) (keyOf x.1) 1} = 1 := by
  have e : {x : (Fin 57 → Byte) × (Short (m.length + 124) → Out) | LibForges RFC.Valid (unlimited m) (hashOf x.2) (keyOf x.1) 1} = Set.univ :=
    Set.eq_univ_of_forall fun x => C95_unlimited m _ _
  rw [chance, e, Set.ncard_univ, div_self]
  exact_mod_cast Nat.card_pos.ne'

/-- C95. So for this forger the hypotheses of C88 hold only with numbers for which its conclusion says nothing, up to `2^(-240)`. -/
theorem C95_needed (m : List Byte) (w v : ℚ) (hw : 0 ≤ w)
    (hs : ((1 : ℕ) + 1) * chance {x : (((Fin (1 + 1) → Out) × (Fin (1 + 1) → Out)) × (Fin 1 → Fin q)) × (Fin 57 → Byte) |
      let s := RFC.secretScalar (List.ofFn x.2)
      let A := s • B
      extract (unlimited m (encodePoint A)) (fun i => blindSigner A (coin x.1.2 i)) (encodePoint A) 1 (extend x.1.1.1) (extend x.1.1.2) % q = s % q} ≤ w ^ 2)
    (hv : chance {x : ((Fin (1 + 1) → Out) × (Fin 1 → Fin q)) × (Fin 57 → Byte) |
      let s := RFC.secretScalar (List.ofFn x.2)
      let A := s • B
      Finds (unlimited m (encodePoint A)) (fun i => blindSigner A (coin x.1.2 i)) (encodePoint A) 1 (extend x.1.1) s} ≤ v) :
    1 ≤ 2 * w + v + 1 / 2 ^ 240 := by
  have h := C88_all (unlimited m) _ (unlimited_bounded m) 1 (by norm_num) w v hw hs hv
  rwa [C95_certain m] at h

/-! ## Guessing -/

/-- A forger who asks for values of the hash function as for challenges, with first halves and messages fixed in advance, and whose offer is fixed, too. -/
def guesser (Rs ms : ℕ → List Byte) (m sig : List Byte) : List Byte → Forger := fun pk =>
  ⟨fun seen => .hash (RFC.dom4 ++ Rs seen.length ++ pk ++ ms seen.length), fun _ => (m, sig)⟩

theorem guesser_play (Rs ms : ℕ → List Byte) (m sig pk : List Byte) (S : ℕ → Signer) (h : ℕ → Out) (n : ℕ) :
    (play (guesser Rs ms m sig pk) S h n).seen.length = n ∧
    (play (guesser Rs ms m sig pk) S h n).table.map Prod.fst = (List.range n).map fun i => RFC.dom4 ++ Rs i ++ pk ++ ms i := by
  induction n with
  | zero => exact ⟨rfl, rfl⟩
  | succ n ih =>
    rw [play, Game.round]
    simp only [guesser] at ih ⊢
    obtain ⟨h1, h2⟩ := ih
    simp only [h1, List.length_append, List.length_singleton, List.map_append, h2, List.range_succ, List.map_cons, List.map_nil, and_self]

theorem guesser_extract (Rs ms : ℕ → List Byte) (m sig pk : List Byte) (S : ℕ → Signer) (h h' : ℕ → Out) (n : ℕ) :
    extract (guesser Rs ms m sig pk) S pk n h h' = 0 := by
  have e : ∀ a b c : ℕ, quotient a a b c = 0 := fun a b c => by rw [quotient, sub_self, zero_div, ZMod.val_zero]
  exact e _ _ _

/-- What is tried for a string with a first half `R` does not depend on the public key. -/
theorem tries_prefix (R l : List Byte) (hR : R.length = 57) : tries (RFC.dom4 ++ R ++ l) = tries (RFC.dom4 ++ R) := by
  have hl : (RFC.dom4 ++ R).length = 67 := by
    rw [List.length_append, hR]
    rfl
  have h1 : ∀ a b : ℕ, (a + 256 ^ 67 * b) % 2 ^ 447 = a % 2 ^ 447 := fun a b => by
    rw [show (256 : ℕ) ^ 67 = 2 ^ 447 * 2 ^ 89 by norm_num, mul_assoc, Nat.add_mul_mod_self_left]
  have hd : RFC.dom4.length = 10 := by decide
  rw [tries, tries, RFC.secretScalar, RFC.secretScalar, leNat_append (RFC.dom4 ++ R) l, hl, h1, List.append_assoc RFC.dom4, List.drop_left' hd,
    List.drop_left' hd, List.take_left' hR, List.take_of_length_le hR.le]

theorem guesser_bounded {Rs ms : ℕ → List Byte} {m sig : List Byte} {L : ℕ} (hR : ∀ i, (Rs i).length = 57) (hms : ∀ i, (ms i).length + 124 ≤ L)
    (hm : m.length + 124 ≤ L) : Bounded (guesser Rs ms m sig) L := by
  intro pk hpk seen
  have hd : RFC.dom4.length = 10 := by decide
  refine ⟨fun x hx => ?_, fun m' hm => ?_, hm⟩
  · obtain rfl := Request.hash.inj hx
    have := hms seen.length
    rw [List.length_append, List.length_append, List.length_append, hd, hpk, hR]
    omega
  · cases hm

/-- All numbers that are tried, modulo q. -/
def guessed (Rs : ℕ → List Byte) (sig : List Byte) (n : ℕ) : List ℕ :=
  (((List.range n).map Rs ++ [sig.take 57]).flatMap fun R => tries (RFC.dom4 ++ R)).map (· % q)

theorem guessed_length (Rs : ℕ → List Byte) (sig : List Byte) (n : ℕ) : (guessed Rs sig n).length = 2 * (n + 1) := by
  rw [guessed, List.length_map, List.length_flatMap]
  have e : (fun R => (tries (RFC.dom4 ++ R)).length) = fun _ => 2 := rfl
  rw [e, List.map_const', List.sum_replicate]
  simp [mul_comm]

theorem guesser_finds {Rs ms : ℕ → List Byte} {m sig : List Byte} (hR : ∀ i, (Rs i).length = 57) (hs : 57 ≤ sig.length) (pk : List Byte) (S : ℕ → Signer)
    (h : ℕ → Out) (n s : ℕ) (hf : Finds (guesser Rs ms m sig pk) S pk n h s) : s % q ∈ (guessed Rs sig n).toFinset := by
  obtain ⟨x, hx, v, hv, e⟩ := hf
  have hp := (guesser_play Rs ms m sig pk S h n).2
  rw [hashed] at hx
  simp only [hp] at hx
  rw [List.mem_toFinset, guessed, ← e]
  refine List.mem_map_of_mem (List.mem_flatMap.mpr ?_)
  rcases List.mem_append.mp hx with hx | hx
  · obtain ⟨i, hi, rfl⟩ := List.mem_map.mp hx
    refine ⟨Rs i, List.mem_append_left _ (List.mem_map_of_mem hi), ?_⟩
    rwa [List.append_assoc, tries_prefix _ _ (hR i)] at hv
  · obtain rfl := List.mem_singleton.mp hx
    refine ⟨sig.take 57, List.mem_append_right _ (List.mem_singleton.mpr rfl), ?_⟩
    rw [challengeString, List.append_assoc] at hv
    have h2 : (sig.take 57).length = 57 := by rw [List.length_take]; omega
    have h3 := tries_prefix (sig.take 57) (pk ++ m) h2
    rw [← h3]
    exact hv

theorem chance_part {α β : Type} [Finite α] [Finite β] [Nonempty α] [Nonempty β] (f : β → ℕ) (T : Finset ℕ) (P : α × β → Prop)
    (h : ∀ x, P x → f x.2 ∈ T) (c : ℚ) (hc : chance {b | f b ∈ T} ≤ c) : chance {x | P x} ≤ c := by
  rw [← chance_snd (α := α)] at hc
  exact (chance_imp h).trans hc

/-- A secret among few numbers, with other random things beside it. -/
theorem chance_beside {α : Type} [Finite α] [Nonempty α] (T : Finset ℕ) (P : α × (Fin 57 → Byte) → Prop)
    (h : ∀ x, P x → RFC.secretScalar (List.ofFn x.2) % q ∈ T) : chance {x | P x} ≤ T.card * (1 / 2 ^ 445) := by
  have h1 := chance_scalar 57 (Nat.le_refl _) T
  exact chance_part (fun a : Fin 57 → Byte => RFC.secretScalar (List.ofFn a) % q) T P h _ h1

theorem small_extract (a c : ℚ) (ha : 0 ≤ c) (h : a ≤ 2 ^ 100) (h' : c ≤ (1 : ℕ) * (1 / 2 ^ 445)) : a * c ≤ (1 / 2 ^ 172) ^ 2 := by
  refine (mul_le_mul h h' ha (by positivity)).trans ?_
  norm_num

theorem small_find (a c : ℚ) (h : a ≤ 2 * 2 ^ 100) (h' : c ≤ a * (1 / 2 ^ 445)) : c ≤ 1 / 2 ^ 344 := by
  refine h'.trans ((mul_le_mul_of_nonneg_right h (by positivity)).trans ?_)
  norm_num

theorem small_sum : (2 : ℚ) * (1 / 2 ^ 172) + 1 / 2 ^ 344 + 1 / 2 ^ 240 ≤ 1 / 2 ^ 170 := by norm_num

theorem guesser_findChance (Rs ms : ℕ → List Byte) (m sig : List Byte) (n : ℕ) (hn : n < 2 ^ 100) (hR : ∀ i, (Rs i).length = 57) (hs : 57 ≤ sig.length) :
    chance {x : ((Fin (n + 1) → Out) × (Fin n → Fin q)) × (Fin 57 → Byte) |
      let s := RFC.secretScalar (List.ofFn x.2)
      let A := s • B
      Finds (guesser Rs ms m sig (encodePoint A)) (fun i => blindSigner A (coin x.1.2 i)) (encodePoint A) n (extend x.1.1) s} ≤ 1 / 2 ^ 344 := by
  have _ : Nonempty (Fin q) := ⟨⟨0, q_pos⟩⟩
  have hn' : (n : ℚ) + 1 ≤ 2 ^ 100 := by exact_mod_cast hn
  have h2 : ((guessed Rs sig n).toFinset.card : ℚ) ≤ 2 * (n + 1) := by
    have := List.toFinset_card_le (guessed Rs sig n)
    rw [guessed_length] at this
    exact_mod_cast this
  refine small_find (guessed Rs sig n).toFinset.card _ (by linarith) ?_
  refine chance_beside _ _ fun x hx => ?_
  dsimp only at hx
  exact guesser_finds hR hs _ _ _ n _ hx

/-- C95. A forger asks for up to `2^100` values of the hash function at challenge strings for the public key, with first halves and messages fixed in advance, and
offers a fixed signature. For a random private key and a random hash function it is valid with a chance of at most `2^(-170)`. -/
theorem C95_guess (Rs ms : ℕ → List Byte) (m sig : List Byte) (L n : ℕ) (hn : n < 2 ^ 100) (hR : ∀ i, (Rs i).length = 57) (hs : 57 ≤ sig.length)
    (hms : ∀ i, (ms i).length + 124 ≤ L) (hm : m.length + 124 ≤ L) :
    chance {x : (Fin 57 → Byte) × (Short L → Out) | LibStrong RFC.Valid (guesser Rs ms m sig) (hashOf x.2) (keyOf x.1) n} ≤ 1 / 2 ^ 170 := by
  have _ : Nonempty (Fin q) := ⟨⟨0, q_pos⟩⟩
  have hn' : (n : ℚ) + 1 ≤ 2 ^ 100 := by exact_mod_cast hn
  refine (C89_strong (guesser Rs ms m sig) L (guesser_bounded hR hms hm) n hn (1 / 2 ^ 172) (1 / 2 ^ 344) (by positivity) ?_ ?_).trans small_sum
  · refine small_extract _ _ (chance_nonneg _) hn' ?_
    rw [← Finset.card_singleton 0]
    refine chance_beside {0} _ fun x hx => ?_
    dsimp only at hx
    rw [guesser_extract, Nat.zero_mod] at hx
    rw [Finset.mem_singleton, ← hx]
  · exact guesser_findChance Rs ms m sig n hn hR hs

/-! ## A fixed second half -/

theorem fixed_extract (F : Forger) (hF : ∀ seen seen', (F.forge seen).2.drop 57 = (F.forge seen').2.drop 57) (pk : List Byte) (S : ℕ → Signer) (h h' : ℕ → Out) (n : ℕ) :
    extract F S pk n h h' = 0 := by
  have e : ∀ a b c : ℕ, quotient a a b c = 0 := fun a b c => by rw [quotient, sub_self, zero_div, ZMod.val_zero]
  rw [extract]
  simp only [offer]
  rw [hF (play F S h n).seen (play F S (splice h h' (fixedIn F S pk n h)) n).seen]
  exact e _ _ _

theorem fixed_chance (F : List Byte → Forger) (n : ℕ) (hn : n < 2 ^ 100)
    (hF : ∀ pk seen seen', ((F pk).forge seen).2.drop 57 = ((F pk).forge seen').2.drop 57) :
    (n + 1) * chance {x : (((Fin (n + 1) → Out) × (Fin (n + 1) → Out)) × (Fin n → Fin q)) × (Fin 57 → Byte) |
      let s := RFC.secretScalar (List.ofFn x.2)
      let A := s • B
      extract (F (encodePoint A)) (fun i => blindSigner A (coin x.1.2 i)) (encodePoint A) n (extend x.1.1.1) (extend x.1.1.2) % q = s % q} ≤ (1 / 2 ^ 172) ^ 2 := by
  have _ : Nonempty (Fin q) := ⟨⟨0, q_pos⟩⟩
  have hn' : (n : ℚ) + 1 ≤ 2 ^ 100 := by exact_mod_cast hn
  refine small_extract _ _ (chance_nonneg _) hn' ?_
  rw [← Finset.card_singleton 0]
  refine chance_beside {0} _ fun x hx => ?_
  dsimp only at hx
  rw [fixed_extract _ (hF _), Nat.zero_mod] at hx
  rw [Finset.mem_singleton, ← hx]

theorem small_sum' : (2 : ℚ) * (1 / 2 ^ 172) + 1 / 2 ^ 240 ≤ 1 / 2 ^ 170 := by norm_num

/-- C95. A forger makes up to `2^100` requests for signatures and values of the hash function, in any way, and chooses the message and the first half of the offer in
any way, but the second half depends on the public key only. For a random private key without the sign bit and a random hash function, the chance of a valid
signature of a new message is at most `2^(-170)`. -/
theorem C95_fixed_half (F : List Byte → Forger) (L : ℕ) (hL : Bounded F L) (n : ℕ) (hn : n < 2 ^ 100)
    (hF : ∀ pk seen seen', ((F pk).forge seen).2.drop 57 = ((F pk).forge seen').2.drop 57) :
    chance {x : ordinaryKeys × (Short L → Out) | LibForges RFC.Valid F (hashOf x.2) (keyOf x.1) n} ≤ 1 / 2 ^ 170 :=
  (C86_numbers F L hL n hn (1 / 2 ^ 172) (by positivity) (fixed_chance F n hn hF)).trans small_sum'

/-- C95. The same for signatures that a verifier accepts that compares field elements exactly, with or without the other repairs. -/
theorem C95_fixed_half_accepted (f : Repairs) (hf : f.limb15 = true) (F : List Byte → Forger) (L : ℕ) (hL : Bounded F L) (n : ℕ) (hn : n < 2 ^ 100)
    (hF : ∀ pk seen seen', ((F pk).forge seen).2.drop 57 = ((F pk).forge seen').2.drop 57) :
    chance {x : ordinaryKeys × (Short L → Out) |
      LibForges (fun xof pk m sig => f.ed448_verify xof pk sig m = .ok (.ok true)) F (hashOf x.2) (keyOf x.1) n} ≤ 1 / 2 ^ 170 :=
  (C87_numbers f hf F L hL n hn (1 / 2 ^ 172) (by positivity) (fixed_chance F n hn hF)).trans small_sum'

/-! ## Guessing with many users -/

/-- A forger who asks for values of the hash function as for challenges for any of the public keys, with users, first halves and messages fixed in advance, and whose
offer is fixed, too. -/
def usersGuesser {N : ℕ} (is : ℕ → Fin N) (Rs ms : ℕ → List Byte) (i : Fin N) (m sig : List Byte) : (Fin N → List Byte) → UserForger N := fun pks =>
  ⟨fun seen => .hash (RFC.dom4 ++ Rs seen.length ++ pks (is seen.length) ++ ms seen.length), fun _ => (i, m, sig)⟩

theorem usersGuesser_bounded {N : ℕ} {is : ℕ → Fin N} {Rs ms : ℕ → List Byte} {i : Fin N} {m sig : List Byte} {L : ℕ} (hR : ∀ i, (Rs i).length = 57)
    (hms : ∀ i, (ms i).length + 124 ≤ L) (hm : m.length + 124 ≤ L) : UsersBounded (usersGuesser is Rs ms i m sig) L := by
  intro pks hpks seen
  have hd : RFC.dom4.length = 10 := by decide
  refine ⟨fun x hx => ?_, fun _ m' hm => ?_, hm⟩
  · obtain rfl := UserRequest.hash.inj hx
    have := hms seen.length
    rw [List.length_append, List.length_append, List.length_append, hd, hpks, hR]
    omega
  · cases hm

/-- A forger who asks for values of the hash function only. What is tried for the strings is `T`. -/
theorem steady_finds {F : Forger} {T : ℕ → List ℕ} {m sig : List Byte} (hn : ∀ seen, ∃ x, F.next seen = .hash x ∧ tries x = T seen.length)
    (hf : ∀ seen, F.forge seen = (m, sig)) (hs : 57 ≤ sig.length) (pk : List Byte) (S : ℕ → Signer) (h : ℕ → Out) (n s : ℕ) (hF : Finds F S pk n h s) :
    s % q ∈ ((((List.range n).flatMap T) ++ tries (RFC.dom4 ++ sig.take 57)).map (· % q)).toFinset := by
  obtain ⟨x, hx, v, hv, e⟩ := hF
  have hp : ∀ n, (play F S h n).seen.length = n ∧ ∀ x ∈ (play F S h n).table.map Prod.fst, ∃ i < n, tries x = T i := by
    intro n
    induction n with
    | zero => exact ⟨rfl, fun x hx => by cases hx⟩
    | succ n ih =>
      obtain ⟨x, h1, h2⟩ := hn (play F S h n).seen
      rw [play, Game.round]
      simp only [h1]
      refine ⟨by rw [List.length_append, ih.1]; rfl, fun y hy => ?_⟩
      rw [List.map_append] at hy
      rcases List.mem_append.mp hy with hy | hy
      · obtain ⟨i, hi, e⟩ := ih.2 y hy
        exact ⟨i, by omega, e⟩
      · obtain rfl := List.mem_singleton.mp hy
        exact ⟨n, by omega, by rw [h2, ih.1]⟩
  rw [List.mem_toFinset, ← e]
  refine List.mem_map_of_mem ?_
  rw [hashed] at hx
  simp only [hf] at hx
  rcases List.mem_append.mp hx with hx | hx
  · obtain ⟨i, hi, e⟩ := (hp n).2 x hx
    rw [e] at hv
    exact List.mem_append_left _ (List.mem_flatMap.mpr ⟨i, List.mem_range.mpr hi, hv⟩)
  · obtain rfl := List.mem_singleton.mp hx
    refine List.mem_append_right _ ?_
    rw [challengeString, List.append_assoc] at hv
    have h2 : (sig.take 57).length = 57 := by rw [List.length_take]; omega
    have h3 := tries_prefix (sig.take 57) (pk ++ m) h2
    rw [← h3]
    exact hv

theorem progress_length {N : ℕ} (j : Fin N) (us : Fin N → Known) (g : UserForger N) : ∀ l ms, (progress j us g ms l).1.length = ms.length + l.length / 2
  | [], ms => rfl
  | [_], ms => by
    rw [progress]
    · simp
    · intro a b l h
      cases h
  | a :: b :: l, ms => by
    rw [progress, progress_length j us g l, List.length_append, List.length_singleton, List.length_cons, List.length_cons]
    omega

/-- What is tried for the strings for which the forger who acts for all other users asks. -/
def usersTried {N : ℕ} (Rs : ℕ → List Byte) (ks : Fin N → Arr Byte 57) (t : ℕ) : List ℕ :=
  if h : t < N then tries (ks ⟨t, h⟩).1 else tries (RFC.dom4 ++ Rs ((t - N) / 2))

theorem usersGuesser_next {N : ℕ} (is : ℕ → Fin N) (Rs ms : ℕ → List Byte) (i : Fin N) (m sig : List Byte) (hR : ∀ i, (Rs i).length = 57) (j : Fin N)
    (ks : Fin N → Arr Byte 57) (pk : List Byte) (seen : List (List Byte)) :
    ∃ x, (against (usersGuesser is Rs ms i m sig) j ks pk).next seen = .hash x ∧ tries x = usersTried Rs ks seen.length := by
  rw [usersTried]
  by_cases h : seen.length < N
  · refine ⟨(ks ⟨seen.length, h⟩).1, ?_, by rw [dif_pos h]⟩
    show (if h : seen.length < N then Request.hash (ks ⟨seen.length, h⟩).1 else _) = _
    rw [dif_pos h]
  · have hp := progress_length j (knownOf ks seen) (usersGuesser is Rs ms i m sig (publicsOf j (knownOf ks seen) pk)) (seen.drop N) []
    generalize e : progress j (knownOf ks seen) (usersGuesser is Rs ms i m sig (publicsOf j (knownOf ks seen) pk)) [] (seen.drop N) = p at hp
    refine ⟨RFC.dom4 ++ Rs p.1.length ++ publicsOf j (knownOf ks seen) pk (is p.1.length) ++ ms p.1.length, ?_, ?_⟩
    · rw [← e]
      show (if h : seen.length < N then Request.hash (ks ⟨seen.length, h⟩).1 else _) = _
      rw [dif_neg h]
      rfl
    · rw [dif_neg h, List.append_assoc, tries_prefix _ _ (hR _), hp, List.length_nil, Nat.zero_add, List.length_drop]

theorem tried_length {N : ℕ} (Rs : ℕ → List Byte) (ks : Fin N → Arr Byte 57) (sig : List Byte) (n : ℕ) :
    ((((List.range n).flatMap (usersTried Rs ks)) ++ tries (RFC.dom4 ++ sig.take 57)).map (· % q)).length = 2 * (n + 1) := by
  have e : (fun t => (usersTried Rs ks t).length) = fun _ => 2 := by
    funext t
    rw [usersTried]
    split <;> rfl
  rw [List.length_map, List.length_append, List.length_flatMap, e, List.map_const', List.sum_replicate, List.length_range]
  show n • 2 + 2 = _
  rw [smul_eq_mul]
  omega

theorem usersGuesser_findChance {N : ℕ} (is : ℕ → Fin N) (Rs ms : ℕ → List Byte) (i : Fin N) (m sig : List Byte) (n : ℕ) (hn : N + 2 * n < 2 ^ 100)
    (hR : ∀ i, (Rs i).length = 57) (hs : 57 ≤ sig.length) (j : Fin N) (ks : Fin N → Arr Byte 57) :
    findChance (against (usersGuesser is Rs ms i m sig) j ks) (N + 2 * n) ≤ 1 / 2 ^ 344 := by
  have _ : Nonempty (Fin q) := ⟨⟨0, q_pos⟩⟩
  have hn' : ((N + 2 * n : ℕ) : ℚ) + 1 ≤ 2 ^ 100 := by exact_mod_cast hn
  have h2 : (((((List.range (N + 2 * n)).flatMap (usersTried Rs ks)) ++ tries (RFC.dom4 ++ sig.take 57)).map (· % q)).toFinset.card : ℚ) ≤
      2 * ((N + 2 * n : ℕ) + 1) := by
    have := List.toFinset_card_le ((((List.range (N + 2 * n)).flatMap (usersTried Rs ks)) ++ tries (RFC.dom4 ++ sig.take 57)).map (· % q))
    rw [tried_length] at this
    exact_mod_cast this
  refine small_find _ _ (h2.trans (by linarith)) ?_
  refine chance_beside _ _ fun x hx => ?_
  dsimp only at hx
  exact steady_finds (usersGuesser_next is Rs ms i m sig hR j ks _) (fun _ => rfl) hs _ _ _ _ _ hx

/-- C95. The same with `N` users: the forger asks for values of the hash function as for challenges for any of the public keys, and offers a fixed signature of a fixed
user. -/
theorem C95_guess_users {N : ℕ} (is : ℕ → Fin N) (Rs ms : ℕ → List Byte) (i : Fin N) (m sig : List Byte) (L n : ℕ) (hn : N + 2 * n < 2 ^ 100)
    (hR : ∀ i, (Rs i).length = 57) (hs : 57 ≤ sig.length) (hms : ∀ i, (ms i).length + 124 ≤ L) (hm : m.length + 124 ≤ L) :
    chance {x : (Fin N → Fin 57 → Byte) × (Short L → Out) | UsersStrong RFC.Valid (usersGuesser is Rs ms i m sig) (hashOf x.2) (fun i => keyOf (x.1 i)) n} ≤
      N / 2 ^ 170 := by
  refine (C92_strong _ L (usersGuesser_bounded hR hms hm) n hn (1 / 2 ^ 172) (1 / 2 ^ 344) (by positivity) (fun j ks => ?_) fun j ks => ?_).trans ?_
  · exact fixed_chance (against (usersGuesser is Rs ms i m sig) j ks) (N + 2 * n) hn fun _ _ _ => rfl
  · exact usersGuesser_findChance is Rs ms i m sig n hn hR hs j ks
  · have := mul_le_mul_of_nonneg_left small_sum (Nat.cast_nonneg (α := ℚ) N)
    rwa [← div_eq_mul_one_div (N : ℚ) (2 ^ 170)] at this

/-! ## Concrete cases -/

/-- A forger as in `C95_guess`: multiples of the base point as first halves, and the signature of the test suite of the library as the offer. -/
example : chance {x : (Fin 57 → Byte) × (Short 1000 → Out) |
    LibStrong RFC.Valid (guesser (fun i => encodePoint (i • B)) (fun _ => []) Vectors.fox Vectors.testSig) (hashOf x.2) (keyOf x.1) (10 ^ 9)} ≤ 1 / 2 ^ 170 :=
  C95_guess _ _ _ _ 1000 _ (by norm_num) (fun _ => encodePoint_length _) (by decide) (fun _ => by simp) (by decide)

/-- The same with a thousand users. -/
example : chance {x : (Fin 1000 → Fin 57 → Byte) × (Short 1000 → Out) |
    UsersStrong RFC.Valid (usersGuesser (fun i => Fin.ofNat 1000 i) (fun i => encodePoint (i • B)) (fun _ => []) 7 Vectors.fox Vectors.testSig) (hashOf x.2)
      (fun i => keyOf (x.1 i)) (10 ^ 9)} ≤ (1000 : ℕ) / 2 ^ 170 :=
  C95_guess_users _ _ _ _ _ _ 1000 _ (by norm_num) (fun _ => encodePoint_length _) (by decide) (fun _ => by simp) (by decide)

/-- The forger of `C95_unlimited` with SHAKE256 and a certain key. -/
example : LibForges RFC.Valid (unlimited Vectors.fox) Shake.shake256 ⟨List.replicate 57 7, by simp⟩ 1 := C95_unlimited _ _ _

/-- A forger who asks for signatures and values of the hash function in turn, and offers the first half of the last reply with the second half 1. -/
def fixedForger : List Byte → Forger := fun pk =>
  ⟨(exampleForger pk).next, fun seen => ([7, 7], ((seen.getLast?.getD []) ++ List.replicate 57 0).take 57 ++ leBytes 57 1)⟩

theorem fixedForger_bounded : Bounded fixedForger 126 := fun pk hpk seen =>
  ⟨(exampleForger_bounded pk hpk seen).1, (exampleForger_bounded pk hpk seen).2.1, Nat.le_refl _⟩

theorem fixedForger_fixed (pk : List Byte) (seen seen' : List (List Byte)) : ((fixedForger pk).forge seen).2.drop 57 = ((fixedForger pk).forge seen').2.drop 57 := by
  have h : ∀ l : List Byte, ((l ++ List.replicate 57 0).take 57).length = 57 := fun l => by
    rw [List.length_take, List.length_append, List.length_replicate]
    omega
  rw [fixedForger]
  dsimp only
  rw [List.drop_left' (h _), List.drop_left' (h _)]

/-- The hypotheses of `C95_fixed_half` are met. -/
example : chance {x : ordinaryKeys × (Short 126 → Out) | LibForges RFC.Valid fixedForger (hashOf x.2) (keyOf x.1) (10 ^ 9)} ≤ 1 / 2 ^ 170 :=
  C95_fixed_half _ _ fixedForger_bounded _ (by norm_num) fixedForger_fixed

end Ed448
