import Mathlib.Data.List.GetD
import Verif.Spec.Observer
import Verif.Properties.Limits

/-!
# C99: signatures give nothing away that the public key does not

For private keys without the sign bit and a random hash function, whatever an observer of unlimited computing power sees can be imitated from the public key alone, up to
a chance of 2⁻²⁴⁰.
-/

namespace Ed448

set_option exponentiation.threshold 1000

/-! ## Statement -/

/-- The observer, who knows the public key, says yes after `n` requests to the library. -/
def LibYes (D : List Byte → Observer) (xof : Xof) (k : Arr Byte 57) (n : ℕ) : Prop :=
  ∃ pk, ed448_derive_public xof k = .ok pk ∧ (D pk.1).yes (libSeen (D pk.1).player xof k n)

/-- The strings that are hashed on requests of the observer have at most `L` bytes, those for signatures less. -/
def Observer.Bounded (D : List Byte → Observer) (L : ℕ) : Prop :=
  124 ≤ L ∧ ∀ pk, pk.length = 57 → ∀ seen, (∀ x, (D pk).next seen = .hash x → x.length ≤ L) ∧ (∀ m, (D pk).next seen = .sign m → m.length + 124 < L)

/-! ## An observer as a forger

The observer who says yes signs a message that nobody asked for, with the discrete logarithm of the public key; the observer who says no offers nothing. -/

/-- The message. -/
def extraMsg (L : ℕ) : List Byte := List.replicate (L - 124) 0

open Classical in
/-- The forger: `n` rounds as the observer, and one more for the challenge. -/
noncomputable def observing (D : List Byte → Observer) (L n : ℕ) : List Byte → Forger := fun pk =>
  ⟨fun seen => if seen.length < n then (D pk).next seen else .hash (RFC.dom4 ++ encodePoint (1 • B) ++ pk ++ extraMsg L),
    fun seen => (extraMsg L, if (D pk).yes (seen.take n) then encodePoint (1 • B) ++ leBytes 57 ((1 + leNat (seen.getD n []) * discreteLog pk) % q) else encodePoint (1 • B))⟩

theorem observing_bounded {D : List Byte → Observer} {L : ℕ} (hD : Observer.Bounded D L) (n : ℕ) : Bounded (observing D L n) L := by
  intro pk hpk seen
  obtain ⟨hL, h⟩ := hD
  have hd : RFC.dom4.length = 10 := by decide
  have hm : (extraMsg L).length + 124 = L := by rw [extraMsg, List.length_replicate]; omega
  refine ⟨fun x hx => ?_, fun m hx => ?_, ?_⟩
  · simp only [observing] at hx
    split at hx
    · exact (h pk hpk seen).1 x hx
    · obtain rfl := Request.hash.inj hx
      rw [List.length_append, List.length_append, List.length_append, hd, hpk, encodePoint_length]
      omega
  · simp only [observing] at hx
    split at hx
    · exact ((h pk hpk seen).2 m hx).le
    · cases hx
  · have e : ((observing D L n pk).forge seen).1 = extraMsg L := by simp only [observing]
    rw [e]
    omega

theorem observing_seen (D : List Byte → Observer) (L n : ℕ) (pk : List Byte) (xof : Xof) (k : Arr Byte 57) :
    ∀ i ≤ n, libSeen (observing D L n pk) xof k i = libSeen (D pk).player xof k i
  | 0, _ => rfl
  | i + 1, hi => by
    have hl := seen_length (D pk).player xof k i
    rw [libSeen, libSeen, observing_seen D L n pk xof k i (by omega)]
    simp only [observing, hl, if_pos (show i < n by omega)]
    rfl

/-- An observer of the library who says yes forges. -/
theorem observing_forges {D : List Byte → Observer} {L n : ℕ} (hD : Observer.Bounded D L) (xof : Xof) (k : Arr Byte 57) (h : LibYes D xof k n) :
    LibNew ρ (observing D L n) xof k (n + 1) := by
  obtain ⟨pk, h1, h2⟩ := h
  obtain ⟨pk', k1, k2⟩ := derive_spec xof k
  obtain rfl : pk = pk' := Except.ok.inj (h1.symm.trans k1)
  have hs : encodePoint (discreteLog pk.1 • B) = pk.1 := by rw [k2]; exact discreteLog_spec _
  have hr := encodePoint_length (1 • B)
  have hseen := observing_seen D L n pk.1 xof k n le_rfl
  have hlen := seen_length (D pk.1).player xof k n
  have hnext : (observing D L n pk.1).next (libSeen (D pk.1).player xof k n) = .hash (RFC.dom4 ++ encodePoint (1 • B) ++ pk.1 ++ extraMsg L) := by
    simp only [observing, hlen, if_neg (lt_irrefl n)]
  have hall : libSeen (observing D L n pk.1) xof k (n + 1) =
      libSeen (D pk.1).player xof k n ++ [RFC.hash xof (RFC.dom4 ++ encodePoint (1 • B) ++ pk.1 ++ extraMsg L) 114] := by
    rw [libSeen, hseen, hnext]
    rfl
  have e1 : (observing D L n pk.1).forge (libSeen (observing D L n pk.1) xof k (n + 1)) =
      (extraMsg L, encodePoint (1 • B) ++ leBytes 57 ((1 + RFC.challenge xof (encodePoint (1 • B)) pk.1 (extraMsg L) * discreteLog pk.1) % q)) := by
    rw [hall]
    simp only [observing]
    rw [List.take_left' hlen, if_pos h2, List.getD_append_right _ _ _ _ hlen.le, hlen, Nat.sub_self]
    rfl
  refine ⟨pk, h1, ?_⟩
  rw [e1]
  have ht : ∀ l, (encodePoint (1 • B) ++ l).take 57 = encodePoint (1 • B) := fun l => List.take_left' hr
  have hd : ∀ l, (encodePoint (1 • B) ++ l).drop 57 = l := fun l => List.drop_left' hr
  have hq : ∀ n, leNat (leBytes 57 (n % q)) = n % q := fun n => by
    have := Nat.mod_lt n q_pos
    have := q_lt
    rw [leNat_leBytes, Nat.mod_eq_of_lt (by omega)]
  have hm : ∀ n : ℕ, (n % q) • B = n • B := fun n => smul_B_inj.mpr (Nat.mod_mod _ _)
  refine ⟨fun i hi e => ?_, ?_⟩
  · exfalso
    rcases Nat.lt_or_ge i n with hlt | hge
    · rw [observing_seen D L n pk.1 xof k i hlt.le] at e
      simp only [observing, seen_length, if_pos hlt] at e
      have := (hD.2 pk.1 pk.2 _).2 _ e
      rw [extraMsg, List.length_replicate] at this
      have := hD.1
      omega
    · obtain rfl : i = n := by omega
      rw [hseen, hnext] at e
      cases e
  · have hl : (encodePoint (1 • B) ++ leBytes 57 ((1 + RFC.challenge xof (encodePoint (1 • B)) pk.1 (extraMsg L) * discreteLog pk.1) % q)).length = 114 := by
      rw [List.length_append, hr, leBytes_length]
    refine ⟨hl.ge, discreteLog pk.1 • B, 1 • B, decodesTo_iff.mpr hs.symm, ?_, ?_⟩
    · rw [ht]
      exact ρ.point (decodes_encode _)
    · simp only [hd, hq, ht, List.take_of_length_le (leBytes_length _ _).le]
      rw [RFC.Equation, hm, add_smul, mul_smul, smul_add]

theorem play_length (F : Forger) (S : ℕ → Signer) (h : ℕ → Out) : ∀ n, (play F S h n).seen.length = n
  | 0 => rfl
  | n + 1 => by
    have := play_length F S h n
    rw [play, Game.round]
    split
    · rw [List.length_append, this, List.length_singleton]
    · split <;> rw [List.length_append, this, List.length_singleton]

theorem observing_play (D : List Byte → Observer) (L n : ℕ) (pk : List Byte) (S : ℕ → Signer) (h : ℕ → Out) :
    ∀ i ≤ n, play (observing D L n pk) S h i = play (D pk).player S h i
  | 0, _ => rfl
  | i + 1, hi => by
    have e : (observing D L n pk).next (play (D pk).player S h i).seen = (D pk).player.next (play (D pk).player S h i).seen := by
      simp only [observing, play_length, if_pos (show i < n by omega)]
      rfl
    rw [play, play, observing_play D L n pk S h i (by omega), Game.round, Game.round, e]

theorem play_take (F : Forger) (S : ℕ → Signer) (h : ℕ → Out) (n : ℕ) : (play F S h (n + 1)).seen.take n = (play F S h n).seen := by
  have hl := play_length F S h n
  rw [play, Game.round]
  split
  · exact List.take_left' hl
  · split <;> exact List.take_left' hl

/-- An observer of the imitation who does not say yes does not win. -/
theorem observing_wins {D : List Byte → Observer} {L n : ℕ} {pk : List Byte} {S : ℕ → Signer} {h : ℕ → Out} {shake : Xof}
    (hw : Wins ρ (observing D L n pk) S shake pk (n + 1) h) : (D pk).yes (play (D pk).player S h n).seen := by
  by_contra hno
  have e := play_take (observing D L n pk) S h n
  rw [observing_play D L n pk S h n le_rfl] at e
  have hf : ((observing D L n pk).forge (play (observing D L n pk) S h (n + 1)).seen).2 = encodePoint (1 • B) := by
    simp only [observing] at e ⊢
    rw [e, if_neg hno]
  have h2 := hw.2.1
  rw [hf, encodePoint_length] at h2
  omega

/-! ## The chances -/

/-- A tape that is too long. -/
theorem chance_longer {α β : Type} [Finite α] [Finite β] [Nonempty α] [Nonempty β] (m t : ℕ) (P : (Fin m → α) × β → Prop) :
    chance {x : (Fin (m + t) → α) × β | P (fun i => x.1 (i.castAdd t), x.2)} = chance {x | P x} := by
  rw [← chance_fst (β := Fin t → α) {x : (Fin m → α) × β | P x}]
  let e : ((Fin m → α) × β) × (Fin t → α) ≃ (Fin (m + t) → α) × β :=
    { toFun := fun x => (Fin.append x.1.1 x.2, x.1.2)
      invFun := fun y => ((fun i => y.1 (i.castAdd t), y.2), fun i => y.1 (i.natAdd m))
      left_inv := fun x => by simp
      right_inv := fun y => by
        refine Prod.ext ?_ rfl
        exact Fin.append_castAdd_natAdd }
  rw [← chance_equiv e]
  refine chance_congr fun x => ?_
  have e1 : (fun i => Fin.append x.1.1 x.2 (i.castAdd t)) = x.1.1 := funext fun i => Fin.append_left _ _ _
  show P (fun i => Fin.append x.1.1 x.2 (i.castAdd t), x.1.2) ↔ P x.1
  rw [e1]

theorem chance_longer_both {α β : Type} [Finite α] [Finite β] [Nonempty α] [Nonempty β] (m t u : ℕ) (P : (Fin m → α) × (Fin m → β) → Prop) :
    chance {x : (Fin (m + t) → α) × (Fin (m + u) → β) | P (fun i => x.1 (i.castAdd t), fun i => x.2 (i.castAdd u))} = chance {x | P x} := by
  rw [chance_longer m t fun x : (Fin m → α) × (Fin (m + u) → β) => P (x.1, fun i => x.2 (i.castAdd u)), chance_swap]
  rw [chance_swap fun x => P x]
  exact chance_longer m u fun x : (Fin m → β) × (Fin m → α) => P (x.2, x.1)

theorem extend_castAdd {m t : ℕ} (h : Fin (m + t) → Out) (i : ℕ) (hi : i < m) : extend (fun j : Fin m => h (j.castAdd t)) i = extend h i := by
  rw [extend, extend, dif_pos hi, dif_pos (by omega)]
  rfl

theorem coin_castAdd {m t : ℕ} (z : Fin (m + t) → Fin q) (i : ℕ) (hi : i < m) : coin (fun j : Fin m => z (j.castAdd t)) i = coin z i := by
  rw [coin, coin, dif_pos hi, dif_pos (by omega)]
  rfl

/-- The imitation does not look at the rest of the tapes. -/
theorem imitate_longer (D : Observer) (A : E) {n t u : ℕ} (h : Fin (n + t) → Out) (z : Fin (n + u) → Fin q) :
    imitate D A (coin fun j : Fin n => z (j.castAdd u)) (extend fun j : Fin n => h (j.castAdd t)) n = imitate D A (coin z) (extend h) n := by
  rw [imitate, imitate, play_congr _ _ n fun i hi => extend_castAdd h i hi, play_signers _ _ n fun i hi => by rw [coin_castAdd z i hi]]

/-- One direction, before numbers are put in. -/
theorem observer_le {D : List Byte → Observer} {L : ℕ} (hD : Observer.Bounded D L) (K : Set (Fin 57 → Byte)) (hK : K.Nonempty) (hb : ∀ k ∈ K, signBit (List.ofFn k) = 0)
    (n : ℕ) :
    chance {x : K × (Short L → Out) | LibYes D (hashOf x.2) (keyOf x.1) n} ≤
      (1 + q / 2 ^ 912) ^ (n + 1) *
        (chance {x : ((Fin n → Out) × (Fin n → Fin q)) × (Fin 57 → Byte) |
          let A := RFC.secretScalar (List.ofFn x.2) • B
          (D (encodePoint A)).yes (imitate (D (encodePoint A)) A (coin x.1.2) (extend x.1.1) n)} + (n + 1) ^ 2 / q) +
      (n + 2) * (1 / Nat.card K + 1 / 2 ^ 456) := by
  have _ : Fintype (Fin 57 → Byte) := Fintype.ofFinite _
  have _ : Nonempty K := hK.to_subtype
  have _ : Nonempty (Fin q) := ⟨⟨0, q_pos⟩⟩
  have hM : (0 : ℚ) < Fintype.card (Fin 57 → Byte) := by exact_mod_cast Fintype.card_pos
  refine (chance_imp (fun x hx => observing_forges (ρ := plain) hD _ _ hx)).trans ?_
  refine (chance_library (observing_bounded hD n) (fun _ _ => 0) K hb (n + 1)).trans ?_
  rw [chance_avg, chance_avg]
  have h1 := fun a : Fin 57 → Byte => C86_secrets plain (observing D L n (RFC.publicOf (RFC.secretScalar (List.ofFn a)))) (fun _ _ => 0) K hK a (n + 1)
  have h2 := fun a : Fin 57 → Byte =>
    C86_blind plain (observing D L n (RFC.publicOf (RFC.secretScalar (List.ofFn a)))) (fun _ _ => 0) (RFC.secretScalar (List.ofFn a)) (n + 1)
  have h3 : ∀ a : Fin 57 → Byte, chance {x : (Fin (n + 1 + 1) → Out) × (Fin (n + 1) → Fin q) |
      Wins plain (observing D L n (RFC.publicOf (RFC.secretScalar (List.ofFn a)))) (fun i => blindSigner (RFC.secretScalar (List.ofFn a) • B) (coin x.2 i)) (fun _ _ => 0#8)
        (RFC.publicOf (RFC.secretScalar (List.ofFn a))) (n + 1) (extend x.1)} ≤
      chance {x : (Fin n → Out) × (Fin n → Fin q) |
        (D (encodePoint (RFC.secretScalar (List.ofFn a) • B))).yes
          (imitate (D (encodePoint (RFC.secretScalar (List.ofFn a) • B))) (RFC.secretScalar (List.ofFn a) • B) (coin x.2) (extend x.1) n)} := by
    intro a
    generalize RFC.secretScalar (List.ofFn a) = s
    refine (chance_imp (fun x hx => observing_wins hx)).trans (le_of_eq ?_)
    rw [← chance_longer_both n 2 1]
    refine chance_congr fun x => ?_
    rw [imitate_longer]
    rfl
  simp only at h1 ⊢
  push_cast at h1 h2 ⊢
  rw [div_add' _ _ _ hM.ne', mul_div_assoc', div_add' _ _ _ hM.ne', div_le_div_iff_of_pos_right hM]
  calc _ ≤ ∑ a : Fin 57 → Byte, ((1 + (q : ℚ) / 2 ^ 912) ^ (n + 1) * (chance {x : (Fin n → Out) × (Fin n → Fin q) |
        (D (encodePoint (RFC.secretScalar (List.ofFn a) • B))).yes
          (imitate (D (encodePoint (RFC.secretScalar (List.ofFn a) • B))) (RFC.secretScalar (List.ofFn a) • B) (coin x.2) (extend x.1) n)} + (n + 1) ^ 2 / q) +
        ((n : ℚ) + 2) * (1 / Nat.card K + 1 / 2 ^ 456)) := Finset.sum_le_sum fun a _ => by
        have hg : 0 ≤ (1 + (q : ℚ) / 2 ^ 912) ^ (n + 1) := by positivity
        have h4 := mul_le_mul_of_nonneg_left (add_le_add_left (h3 a) (((n : ℚ) + 1) ^ 2 / q)) hg
        have h5 := h1 a
        have h6 := h2 a
        have e : (n : ℚ) + 2 = n + 1 + 1 := by ring
        rw [e]
        linarith
    _ = _ := by
        rw [Finset.sum_add_distrib, ← Finset.mul_sum, Finset.sum_add_distrib, Finset.sum_const, Finset.sum_const, Finset.card_univ, nsmul_eq_mul, nsmul_eq_mul]
        ring

theorem growth_small (x : ℚ) (hx : 0 ≤ x) : ∀ n : ℕ, 2 * n * x ≤ 1 → (1 + x) ^ n ≤ 1 + 2 * n * x
  | 0, _ => by simp
  | n + 1, h => by
    push_cast at h ⊢
    have hn : (0 : ℚ) ≤ n := Nat.cast_nonneg n
    have h1 := growth_small x hx n (by nlinarith)
    rw [pow_succ]
    nlinarith

theorem observer_numbers {D : List Byte → Observer} {L : ℕ} (hD : Observer.Bounded D L) (n : ℕ) (hn : n < 2 ^ 100) :
    chance {x : ordinaryKeys × (Short L → Out) | LibYes D (hashOf x.2) (keyOf x.1) n} ≤
      chance {x : ((Fin n → Out) × (Fin n → Fin q)) × (Fin 57 → Byte) |
          let A := RFC.secretScalar (List.ofFn x.2) • B
          (D (encodePoint A)).yes (imitate (D (encodePoint A)) A (coin x.1.2) (extend x.1.1) n)} + 1 / 2 ^ 240 := by
  have _ : Nonempty (Fin q) := ⟨⟨0, q_pos⟩⟩
  refine (observer_le hD ordinaryKeys keys_nonempty.1 (fun _ h => h) n).trans ?_
  have hc1 := chance_le_one {x : ((Fin n → Out) × (Fin n → Fin q)) × (Fin 57 → Byte) |
          let A := RFC.secretScalar (List.ofFn x.2) • B
          (D (encodePoint A)).yes (imitate (D (encodePoint A)) A (coin x.1.2) (extend x.1.1) n)}
  have hc0 := chance_nonneg {x : ((Fin n → Out) × (Fin n → Fin q)) × (Fin 57 → Byte) |
          let A := RFC.secretScalar (List.ofFn x.2) • B
          (D (encodePoint A)).yes (imitate (D (encodePoint A)) A (coin x.1.2) (extend x.1.1) n)}
  simp only at hc0 hc1 ⊢
  generalize chance {x : ((Fin n → Out) × (Fin n → Fin q)) × (Fin 57 → Byte) |
          (D (encodePoint (RFC.secretScalar (List.ofFn x.2) • B))).yes
            (imitate (D (encodePoint (RFC.secretScalar (List.ofFn x.2) • B))) (RFC.secretScalar (List.ofFn x.2) • B) (coin x.1.2) (extend x.1.1) n)} = c at *
  obtain ⟨q1, q2⟩ := q_bounds
  have hK : (2 : ℚ) ^ 448 ≤ Nat.card ordinaryKeys := by exact_mod_cast many_keys
  have hn0 : (0 : ℚ) ≤ n := Nat.cast_nonneg n
  have hn1 : (n : ℚ) + 1 ≤ 2 ^ 100 := by exact_mod_cast hn
  generalize (Nat.card ordinaryKeys : ℚ) = k at *
  generalize (q : ℚ) = Q at *
  have hQ : 0 < Q := lt_of_lt_of_le (by positivity) q1
  have hk0 : 0 < k := lt_of_lt_of_le (by positivity) hK
  have hQ1 : 1 / Q ≤ 1 / 2 ^ 445 := one_div_le_one_div_of_le (by positivity) q1
  have hk1 : 1 / k ≤ 1 / 2 ^ 448 := one_div_le_one_div_of_le (by positivity) hK
  have hx : Q / 2 ^ 912 ≤ 2 ^ 446 / 2 ^ 912 := div_le_div_of_nonneg_right q2 (by positivity)
  have hx0 : 0 ≤ Q / 2 ^ 912 := by positivity
  have hnx : 2 * ((n + 1 : ℕ) : ℚ) * (Q / 2 ^ 912) ≤ 1 / 2 ^ 300 := by
    push_cast
    have : 2 * ((n : ℚ) + 1) * (Q / 2 ^ 912) ≤ 2 * 2 ^ 100 * (2 ^ 446 / 2 ^ 912) := mul_le_mul (by linarith) hx hx0 (by positivity)
    exact this.trans (by norm_num)
  have hg : (1 + Q / 2 ^ 912) ^ (n + 1) ≤ 1 + 1 / 2 ^ 300 := by
    have := growth_small _ hx0 (n + 1) (hnx.trans (by norm_num))
    linarith
  have hg0 : 0 ≤ (1 + Q / 2 ^ 912) ^ (n + 1) := by positivity
  have he : ((n : ℚ) + 1) ^ 2 / Q ≤ 1 / 2 ^ 245 := by
    rw [div_eq_mul_one_div]
    exact (mul_le_mul (pow_le_pow_left₀ (by positivity) hn1 2) hQ1 (by positivity) (by positivity)).trans (by norm_num)
  have hd : ((n : ℚ) + 2) * (1 / k + 1 / 2 ^ 456) ≤ 1 / 2 ^ 300 :=
    (mul_le_mul (show (n : ℚ) + 2 ≤ 2 ^ 101 by linarith) (show 1 / k + 1 / 2 ^ 456 ≤ 1 / 2 ^ 448 + 1 / 2 ^ 456 by linarith) (by positivity) (by positivity)).trans
      (by norm_num)
  have he0 : 0 ≤ ((n : ℚ) + 1) ^ 2 / Q := by positivity
  have hm : (1 + Q / 2 ^ 912) ^ (n + 1) * (c + (n + 1) ^ 2 / Q) ≤ (1 + 1 / 2 ^ 300) * (c + 1 / 2 ^ 245) :=
    mul_le_mul hg (by linarith) (by linarith) (by positivity)
  have h2 : (1 + 1 / 2 ^ 300) * (c + 1 / 2 ^ 245) ≤ c + (1 / 2 ^ 300 + 2 * (1 / 2 ^ 245) : ℚ) := by
    have : (1 : ℚ) / 2 ^ 300 * c ≤ 1 / 2 ^ 300 * 1 := mul_le_mul_of_nonneg_left hc1 (by positivity)
    have : (1 : ℚ) / 2 ^ 300 * (1 / 2 ^ 245) ≤ 1 * (1 / 2 ^ 245) := mul_le_mul_of_nonneg_right (by norm_num) (by positivity)
    linarith
  have hnum : (1 : ℚ) / 2 ^ 300 + 2 * (1 / 2 ^ 245) + 1 / 2 ^ 300 ≤ 1 / 2 ^ 240 := by norm_num
  linarith

theorem chance_not {α : Type} [Finite α] [Nonempty α] (P : α → Prop) : chance {a | ¬ P a} = 1 - chance {a | P a} := by
  have h0 : (Nat.card α : ℚ) ≠ 0 := by exact_mod_cast Nat.card_pos.ne'
  have h := Set.ncard_add_ncard_compl {a | P a}
  have e : {a | P a}ᶜ = {a | ¬ P a} := rfl
  rw [e] at h
  rw [chance, chance, eq_sub_iff_add_eq, ← add_div, div_eq_one_iff_eq h0]
  rw [add_comm]
  exact_mod_cast h

/-- The observer who gives the opposite answer. -/
def Observer.opposite (D : Observer) : Observer := ⟨D.next, fun seen => ¬ D.yes seen⟩

theorem opposite_yes (D : List Byte → Observer) (xof : Xof) (k : Arr Byte 57) (n : ℕ) : LibYes (fun pk => (D pk).opposite) xof k n ↔ ¬ LibYes D xof k n := by
  obtain ⟨pk, k1, k2⟩ := derive_spec xof k
  constructor
  · rintro ⟨pk', a, b⟩ ⟨pk'', c, d⟩
    obtain rfl : pk' = pk'' := Except.ok.inj (a.symm.trans c)
    exact b d
  · exact fun h => ⟨pk, k1, fun h' => h ⟨pk, k1, h'⟩⟩

/-- C99. An observer of the library, with a random private key without the sign bit and a random hash function, says yes as often as an observer of the imitation. -/
theorem C99_imitation (D : List Byte → Observer) (L : ℕ) (hD : Observer.Bounded D L) (n : ℕ) (hn : n < 2 ^ 100) :
    |chance {x : ordinaryKeys × (Short L → Out) | LibYes D (hashOf x.2) (keyOf x.1) n} -
      chance {x : ((Fin n → Out) × (Fin n → Fin q)) × (Fin 57 → Byte) |
        let A := RFC.secretScalar (List.ofFn x.2) • B
        (D (encodePoint A)).yes (imitate (D (encodePoint A)) A (coin x.1.2) (extend x.1.1) n)}| ≤ 1 / 2 ^ 240 := by
  have _ : Nonempty (Fin q) := ⟨⟨0, q_pos⟩⟩
  have _ : Nonempty ordinaryKeys := keys_nonempty.1.to_subtype
  have h1 := observer_numbers hD n hn
  have h2 := observer_numbers (D := fun pk => (D pk).opposite) hD n hn
  rw [chance_congr fun x : ordinaryKeys × (Short L → Out) => opposite_yes D (hashOf x.2) (keyOf x.1) n, chance_not] at h2
  have h3 := chance_not fun x : ((Fin n → Out) × (Fin n → Fin q)) × (Fin 57 → Byte) =>
        (D (encodePoint (RFC.secretScalar (List.ofFn x.2) • B))).yes
          (imitate (D (encodePoint (RFC.secretScalar (List.ofFn x.2) • B))) (RFC.secretScalar (List.ofFn x.2) • B) (coin x.1.2) (extend x.1.1) n)
  have h4 : ∀ (D : Observer) (A : E) (z : ℕ → ℕ) (h : ℕ → Out) (n : ℕ), imitate D.opposite A z h n = imitate D A z h n := fun _ _ _ _ _ => rfl
  simp only [h4] at h1 h2 ⊢
  have h5 : ∀ (D : Observer) s, D.opposite.yes s ↔ ¬ D.yes s := fun _ _ => Iff.rfl
  simp only [h5] at h2
  rw [h3] at h2
  rw [abs_le]
  constructor <;> linarith

/-! ## Private keys with the sign bit -/

/-- The strings that are hashed for the forger: those for the observer, and one more. -/
theorem observing_finds {D : List Byte → Observer} {L n s : ℕ} {A : E} {z : ℕ → ℕ} {h : ℕ → Out}
    (hf : Finds (observing D L n (encodePoint A)) (fun i => blindSigner A (z i)) (encodePoint A) (n + 1) h s) :
    (D (encodePoint A)).Finds A z h n s ∨ s % q ∈ ((tries (RFC.dom4 ++ encodePoint (1 • B))).map (· % q)).toFinset := by
  obtain ⟨x, hx, v, hv, e⟩ := hf
  have hr := encodePoint_length (1 • B)
  have hlen := play_length (D (encodePoint A)).player (fun i => blindSigner A (z i)) h n
  have hlast : x = RFC.dom4 ++ encodePoint (1 • B) ++ encodePoint A ++ extraMsg L →
      s % q ∈ ((tries (RFC.dom4 ++ encodePoint (1 • B))).map (· % q)).toFinset := by
    rintro rfl
    rw [List.append_assoc, tries_prefix _ _ hr] at hv
    rw [List.mem_toFinset, ← e]
    exact List.mem_map_of_mem hv
  have hnext : (observing D L n (encodePoint A)).next (play (D (encodePoint A)).player (fun i => blindSigner A (z i)) h n).seen =
      .hash (RFC.dom4 ++ encodePoint (1 • B) ++ encodePoint A ++ extraMsg L) := by
    simp only [observing, hlen, if_neg (lt_irrefl n)]
  rw [hashed] at hx
  rcases List.mem_append.mp hx with hx | hx
  · rw [play, observing_play D L n _ _ h n le_rfl, Game.round, hnext] at hx
    simp only [List.map_append, List.map_cons, List.map_nil] at hx
    rcases List.mem_append.mp hx with hx | hx
    · exact .inl ⟨x, hx, v, hv, e⟩
    · exact .inr (hlast (List.mem_singleton.mp hx))
  · refine .inr (hlast ((List.mem_singleton.mp hx).trans ?_))
    have ht : ∀ l, (encodePoint (1 • B) ++ l).take 57 = encodePoint (1 • B) := fun l => List.take_left' hr
    simp only [challengeString, observing]
    split
    · rw [ht]
    · rw [List.take_of_length_le hr.le]

theorem finds_longer (D : Observer) (A : E) {n t u : ℕ} (h : Fin (n + t) → Out) (z : Fin (n + u) → Fin q) (s : ℕ) :
    D.Finds A (coin fun j : Fin n => z (j.castAdd u)) (extend fun j : Fin n => h (j.castAdd t)) n s ↔ D.Finds A (coin z) (extend h) n s := by
  rw [Observer.Finds, Observer.Finds, play_congr _ _ n fun i hi => extend_castAdd h i hi, play_signers _ _ n fun i hi => by rw [coin_castAdd z i hi]]

theorem chance_longer_beside {α β γ : Type} [Finite α] [Finite β] [Finite γ] [Nonempty α] [Nonempty β] (m t u : ℕ) (P : ((Fin m → α) × (Fin m → β)) × γ → Prop) :
    chance {x : ((Fin (m + t) → α) × (Fin (m + u) → β)) × γ | P ((fun i => x.1.1 (i.castAdd t), fun i => x.1.2 (i.castAdd u)), x.2)} = chance {x | P x} := by
  have _ : Fintype γ := Fintype.ofFinite γ
  rw [chance_avg, chance_avg]
  exact congrArg (· / (Fintype.card γ : ℚ)) (Finset.sum_congr rfl fun c _ => chance_longer_both m t u fun x => P (x, c))

theorem observer_direct_le {D : List Byte → Observer} {L : ℕ} (hD : Observer.Bounded D L) (n : ℕ) :
    chance {x : directKeys × (Short L → Out) | LibYes D (hashOf x.2) (keyOf x.1) n} ≤
      (1 + q / 2 ^ 912) ^ (n + 1) *
        (chance {x : ((Fin n → Out) × (Fin n → Fin q)) × (Fin 57 → Byte) |
          let A := RFC.secretScalar (List.ofFn x.2) • B
          (D (encodePoint A)).yes (imitate (D (encodePoint A)) A (coin x.1.2) (extend x.1.1) n)} +
        (chance {x : ((Fin n → Out) × (Fin n → Fin q)) × (Fin 57 → Byte) |
          let s := RFC.secretScalar (List.ofFn x.2)
          (D (encodePoint (s • B))).Finds (s • B) (coin x.1.2) (extend x.1.1) n s} + 2 * (1 / 2 ^ 445)) + (n + 1) ^ 2 / q) := by
  have _ : Fintype directKeys := Fintype.ofFinite _
  have _ : Nonempty directKeys := keys_nonempty.2.to_subtype
  have _ : Nonempty (Fin q) := ⟨⟨0, q_pos⟩⟩
  have hM : (0 : ℚ) < Fintype.card directKeys := by exact_mod_cast Fintype.card_pos
  let pk := fun s : ℕ => encodePoint (s • B)
  let F := fun s : ℕ => observing D L n (pk s)
  let Ev := fun (s : ℕ) (g : Game) (o : Out) => g.Won plain (F s) (fun _ _ => 0#8) (pk s) o ∨
    ∃ x ∈ g.table.map Prod.fst ++ [challengeString (pk s) ((F s).forge g.seen).1 ((F s).forge g.seen).2], ∃ v ∈ tries x, v % q = s % q
  have h1 := fun k : directKeys => chance_direct (ρ := plain) (observing_bounded hD n) (fun _ _ => 0#8) k.1 k.2 (n + 1)
  have h2 := fun k : directKeys => blind_chance (Ev (RFC.secretScalar (List.ofFn k.1))) (F (RFC.secretScalar (List.ofFn k.1))) (RFC.secretScalar (List.ofFn k.1)) (n + 1)
  have h3 : chance {x : ((Fin (n + 1 + 1) → Out) × (Fin (n + 1) → Fin q)) × directKeys |
        (fun (y : (Fin (n + 1 + 1) → Out) × (Fin (n + 1) → Fin q)) (s : ℕ) =>
          Ev s (play (F s) (fun i => blindSigner (s • B) (coin y.2 i)) (extend y.1) (n + 1)) (extend y.1 (n + 1))) x.1 (RFC.secretScalar (List.ofFn x.2.1))} ≤
      chance {x : ((Fin n → Out) × (Fin n → Fin q)) × (Fin 57 → Byte) |
          let A := RFC.secretScalar (List.ofFn x.2) • B
          (D (encodePoint A)).yes (imitate (D (encodePoint A)) A (coin x.1.2) (extend x.1.1) n)} +
        (chance {x : ((Fin n → Out) × (Fin n → Fin q)) × (Fin 57 → Byte) |
          let s := RFC.secretScalar (List.ofFn x.2)
          (D (encodePoint (s • B))).Finds (s • B) (coin x.1.2) (extend x.1.1) n s} + 2 * (1 / 2 ^ 445)) := by
    rw [chance_scalars (fun (y : (Fin (n + 1 + 1) → Out) × (Fin (n + 1) → Fin q)) (s : ℕ) =>
      Ev s (play (F s) (fun i => blindSigner (s • B) (coin y.2 i)) (extend y.1) (n + 1)) (extend y.1 (n + 1)))]
    rw [← chance_longer_beside n 2 1 fun x : ((Fin n → Out) × (Fin n → Fin q)) × (Fin 57 → Byte) =>
      (D (encodePoint (RFC.secretScalar (List.ofFn x.2) • B))).yes (imitate (D (encodePoint (RFC.secretScalar (List.ofFn x.2) • B)))
        (RFC.secretScalar (List.ofFn x.2) • B) (coin x.1.2) (extend x.1.1) n)]
    rw [← chance_longer_beside n 2 1 fun x : ((Fin n → Out) × (Fin n → Fin q)) × (Fin 57 → Byte) =>
      (D (encodePoint (RFC.secretScalar (List.ofFn x.2) • B))).Finds (RFC.secretScalar (List.ofFn x.2) • B) (coin x.1.2) (extend x.1.1) n (RFC.secretScalar (List.ofFn x.2))]
    have h4 : chance {x : ((Fin (n + 2) → Out) × (Fin (n + 1) → Fin q)) × (Fin 57 → Byte) |
        RFC.secretScalar (List.ofFn x.2) % q ∈ ((tries (RFC.dom4 ++ encodePoint (1 • B))).map (· % q)).toFinset} ≤ 2 * (1 / 2 ^ 445) := by
      refine (chance_beside ((tries (RFC.dom4 ++ encodePoint (1 • B))).map (· % q)).toFinset _ fun x hx => hx).trans ?_
      refine mul_le_mul_of_nonneg_right ?_ (by positivity)
      have := List.toFinset_card_le ((tries (RFC.dom4 ++ encodePoint (1 • B))).map (· % q))
      have e : ((tries (RFC.dom4 ++ encodePoint (1 • B))).map (· % q)).length = 2 := rfl
      rw [e] at this
      exact_mod_cast this
    refine chance_or le_rfl (chance_or le_rfl h4 fun x hx => hx) fun x hx => ?_
    simp only
    rw [imitate_longer, finds_longer]
    rcases hx with hx | hx
    · exact .inl (observing_wins hx)
    · exact .inr (observing_finds hx)
  rw [chance_avg] at h3
  rw [chance_avg_left (fun x : directKeys × (Short L → Out) => LibYes D (hashOf x.2) (keyOf x.1) n)]
  have hg : 0 ≤ (1 + (q : ℚ) / 2 ^ 912) ^ (n + 1) := by positivity
  refine le_trans ?_ (mul_le_mul_of_nonneg_left (add_le_add_left h3 _) hg)
  rw [div_add' _ _ _ hM.ne', mul_div_assoc', div_le_div_iff_of_pos_right hM]
  calc _ ≤ ∑ k : directKeys, (1 + (q : ℚ) / 2 ^ 912) ^ (n + 1) * (chance {x : (Fin (n + 1 + 1) → Out) × (Fin (n + 1) → Fin q) |
        Ev (RFC.secretScalar (List.ofFn k.1)) (play (F (RFC.secretScalar (List.ofFn k.1))) (fun i => blindSigner (RFC.secretScalar (List.ofFn k.1) • B) (coin x.2 i))
          (extend x.1) (n + 1)) (extend x.1 (n + 1))} + ((n : ℚ) + 1) ^ 2 / q) := Finset.sum_le_sum fun k _ => by
        refine (chance_imp fun f hf => observing_forges (ρ := plain) hD _ _ hf).trans ((h1 k).trans ((h2 k).trans (le_of_eq ?_)))
        push_cast
        rfl
    _ = _ := by
        rw [← Finset.mul_sum, Finset.sum_add_distrib, Finset.sum_const, Finset.card_univ, nsmul_eq_mul]
        ring

theorem direct_observer_numbers {D : List Byte → Observer} {L : ℕ} (hD : Observer.Bounded D L) (n : ℕ) (hn : n < 2 ^ 100) :
    chance {x : directKeys × (Short L → Out) | LibYes D (hashOf x.2) (keyOf x.1) n} ≤
      chance {x : ((Fin n → Out) × (Fin n → Fin q)) × (Fin 57 → Byte) |
          let A := RFC.secretScalar (List.ofFn x.2) • B
          (D (encodePoint A)).yes (imitate (D (encodePoint A)) A (coin x.1.2) (extend x.1.1) n)} +
        (chance {x : ((Fin n → Out) × (Fin n → Fin q)) × (Fin 57 → Byte) |
          let s := RFC.secretScalar (List.ofFn x.2)
          (D (encodePoint (s • B))).Finds (s • B) (coin x.1.2) (extend x.1.1) n s} + 1 / 2 ^ 240) := by
  have _ : Nonempty (Fin q) := ⟨⟨0, q_pos⟩⟩
  refine (observer_direct_le hD n).trans ?_
  have hc1 := chance_le_one {x : ((Fin n → Out) × (Fin n → Fin q)) × (Fin 57 → Byte) |
          let A := RFC.secretScalar (List.ofFn x.2) • B
          (D (encodePoint A)).yes (imitate (D (encodePoint A)) A (coin x.1.2) (extend x.1.1) n)}
  have hc0 := chance_nonneg {x : ((Fin n → Out) × (Fin n → Fin q)) × (Fin 57 → Byte) |
          let A := RFC.secretScalar (List.ofFn x.2) • B
          (D (encodePoint A)).yes (imitate (D (encodePoint A)) A (coin x.1.2) (extend x.1.1) n)}
  have hv1 := chance_le_one {x : ((Fin n → Out) × (Fin n → Fin q)) × (Fin 57 → Byte) |
          let s := RFC.secretScalar (List.ofFn x.2)
          (D (encodePoint (s • B))).Finds (s • B) (coin x.1.2) (extend x.1.1) n s}
  have hv0 := chance_nonneg {x : ((Fin n → Out) × (Fin n → Fin q)) × (Fin 57 → Byte) |
          let s := RFC.secretScalar (List.ofFn x.2)
          (D (encodePoint (s • B))).Finds (s • B) (coin x.1.2) (extend x.1.1) n s}
  simp only at hc0 hc1 hv0 hv1 ⊢
  generalize chance {x : ((Fin n → Out) × (Fin n → Fin q)) × (Fin 57 → Byte) |
          (D (encodePoint (RFC.secretScalar (List.ofFn x.2) • B))).yes
            (imitate (D (encodePoint (RFC.secretScalar (List.ofFn x.2) • B))) (RFC.secretScalar (List.ofFn x.2) • B) (coin x.1.2) (extend x.1.1) n)} = c at *
  generalize chance {x : ((Fin n → Out) × (Fin n → Fin q)) × (Fin 57 → Byte) |
          (D (encodePoint (RFC.secretScalar (List.ofFn x.2) • B))).Finds (RFC.secretScalar (List.ofFn x.2) • B) (coin x.1.2) (extend x.1.1) n
            (RFC.secretScalar (List.ofFn x.2))} = v at *
  obtain ⟨q1, q2⟩ := q_bounds
  have hn0 : (0 : ℚ) ≤ n := Nat.cast_nonneg n
  have hn1 : (n : ℚ) + 1 ≤ 2 ^ 100 := by exact_mod_cast hn
  generalize (q : ℚ) = Q at *
  have hQ : 0 < Q := lt_of_lt_of_le (by positivity) q1
  have hQ1 : 1 / Q ≤ 1 / 2 ^ 445 := one_div_le_one_div_of_le (by positivity) q1
  have hx : Q / 2 ^ 912 ≤ 2 ^ 446 / 2 ^ 912 := div_le_div_of_nonneg_right q2 (by positivity)
  have hx0 : 0 ≤ Q / 2 ^ 912 := by positivity
  have hnx : 2 * ((n + 1 : ℕ) : ℚ) * (Q / 2 ^ 912) ≤ 1 / 2 ^ 300 := by
    push_cast
    have : 2 * ((n : ℚ) + 1) * (Q / 2 ^ 912) ≤ 2 * 2 ^ 100 * (2 ^ 446 / 2 ^ 912) := mul_le_mul (by linarith) hx hx0 (by positivity)
    exact this.trans (by norm_num)
  have hg : (1 + Q / 2 ^ 912) ^ (n + 1) ≤ 1 + 1 / 2 ^ 300 := by
    have := growth_small _ hx0 (n + 1) (hnx.trans (by norm_num))
    linarith
  have he : ((n : ℚ) + 1) ^ 2 / Q ≤ 1 / 2 ^ 245 := by
    rw [div_eq_mul_one_div]
    exact (mul_le_mul (pow_le_pow_left₀ (by positivity) hn1 2) hQ1 (by positivity) (by positivity)).trans (by norm_num)
  have he0 : 0 ≤ ((n : ℚ) + 1) ^ 2 / Q := by positivity
  have hm : (1 + Q / 2 ^ 912) ^ (n + 1) * (c + (v + 2 * (1 / 2 ^ 445)) + (n + 1) ^ 2 / Q) ≤ (1 + 1 / 2 ^ 300) * (c + v + 2 * (1 / 2 ^ 245)) := by
    refine mul_le_mul hg ?_ (by positivity) (by positivity)
    have : (2 : ℚ) * (1 / 2 ^ 445) ≤ 1 / 2 ^ 245 := by norm_num
    linarith
  have h2 : (1 + 1 / 2 ^ 300) * (c + v + 2 * (1 / 2 ^ 245)) ≤ c + v + (2 * (1 / 2 ^ 300) + 4 * (1 / 2 ^ 245) : ℚ) := by
    have : (1 : ℚ) / 2 ^ 300 * (c + v) ≤ 1 / 2 ^ 300 * 2 := mul_le_mul_of_nonneg_left (by linarith) (by positivity)
    have : (1 : ℚ) / 2 ^ 300 * (2 * (1 / 2 ^ 245)) ≤ 1 * (2 * (1 / 2 ^ 245)) := mul_le_mul_of_nonneg_right (by norm_num) (by positivity)
    linarith
  have hnum : (2 : ℚ) * (1 / 2 ^ 300) + 4 * (1 / 2 ^ 245) ≤ 1 / 2 ^ 240 := by norm_num
  linarith

/-- C99, for private keys with the sign bit. Here an observer who tells the library from the imitation finds the secret scalar. -/
theorem C99_direct (D : List Byte → Observer) (L : ℕ) (hD : Observer.Bounded D L) (n : ℕ) (hn : n < 2 ^ 100) :
    |chance {x : directKeys × (Short L → Out) | LibYes D (hashOf x.2) (keyOf x.1) n} -
      chance {x : ((Fin n → Out) × (Fin n → Fin q)) × (Fin 57 → Byte) |
        let A := RFC.secretScalar (List.ofFn x.2) • B
        (D (encodePoint A)).yes (imitate (D (encodePoint A)) A (coin x.1.2) (extend x.1.1) n)}| ≤
      chance {x : ((Fin n → Out) × (Fin n → Fin q)) × (Fin 57 → Byte) |
        let s := RFC.secretScalar (List.ofFn x.2)
        (D (encodePoint (s • B))).Finds (s • B) (coin x.1.2) (extend x.1.1) n s} + 1 / 2 ^ 240 := by
  have _ : Nonempty (Fin q) := ⟨⟨0, q_pos⟩⟩
  have _ : Nonempty directKeys := keys_nonempty.2.to_subtype
  have h1 := direct_observer_numbers hD n hn
  have h2 := direct_observer_numbers (D := fun pk => (D pk).opposite) hD n hn
  rw [chance_congr fun x : directKeys × (Short L → Out) => opposite_yes D (hashOf x.2) (keyOf x.1) n, chance_not] at h2
  have h3 := chance_not fun x : ((Fin n → Out) × (Fin n → Fin q)) × (Fin 57 → Byte) =>
        (D (encodePoint (RFC.secretScalar (List.ofFn x.2) • B))).yes
          (imitate (D (encodePoint (RFC.secretScalar (List.ofFn x.2) • B))) (RFC.secretScalar (List.ofFn x.2) • B) (coin x.1.2) (extend x.1.1) n)
  have h4 : ∀ (D : Observer) (A : E) (z : ℕ → ℕ) (h : ℕ → Out) (n : ℕ), imitate D.opposite A z h n = imitate D A z h n := fun _ _ _ _ _ => rfl
  have h6 : ∀ (D : Observer) (A : E) (z : ℕ → ℕ) (h : ℕ → Out) (n s : ℕ), D.opposite.Finds A z h n s ↔ D.Finds A z h n s := fun _ _ _ _ _ _ => Iff.rfl
  simp only [h4, h6] at h1 h2 ⊢
  have h5 : ∀ (D : Observer) s, D.opposite.yes s ↔ ¬ D.yes s := fun _ _ => Iff.rfl
  simp only [h5] at h2
  rw [h3] at h2
  rw [abs_le]
  constructor <;> linarith

/-! ## The sign bit does matter

With unlimited computing power the secret scalar is found from the public key. If the private key has the sign bit, the nonces follow from it. -/

open Classical in
/-- The secret scalar for a public key. -/
noncomputable def scalarOf (pk : List Byte) : ℕ := if h : ∃ l, RFC.publicOf (RFC.secretScalar l) = pk then RFC.secretScalar h.choose else 0

theorem scalarOf_spec (l : List Byte) : scalarOf (RFC.publicOf (RFC.secretScalar l)) = RFC.secretScalar l := by
  have h : ∃ l', RFC.publicOf (RFC.secretScalar l') = RFC.publicOf (RFC.secretScalar l) := ⟨l, rfl⟩
  rw [scalarOf, dif_pos h]
  exact publicOf_inj.mp h.choose_spec

/-- An observer who asks for the value of the hash function that gives the nonce for `m`, and for a signature of `m`, and says yes if they fit. -/
noncomputable def nonceObserver (m : List Byte) : List Byte → Observer := fun pk =>
  ⟨fun seen => if seen.length = 0 then .hash (RFC.dom4 ++ leBytes 57 (scalarOf pk) ++ m) else .sign m,
    fun seen => (seen.getD 1 []).take 57 = encodePoint (leNat (seen.getD 0 []) • B)⟩

theorem nonceObserver_bounded (m : List Byte) : Observer.Bounded (nonceObserver m) (m.length + 125) := by
  have hd : RFC.dom4.length = 10 := by decide
  refine ⟨by omega, fun pk _ seen => ⟨fun x hx => ?_, fun m' hx => ?_⟩⟩
  · simp only [nonceObserver] at hx
    split at hx
    · obtain rfl := Request.hash.inj hx
      rw [List.length_append, List.length_append, hd, leBytes_length]
      omega
    · cases hx
  · simp only [nonceObserver] at hx
    split at hx
    · cases hx
    · obtain rfl := Request.sign.inj hx
      omega

/-- C99. The observer says yes for every private key with the sign bit and every hash function, but hardly ever for the imitation. -/
theorem C99_sign_bit (m : List Byte) :
    (∀ (xof : Xof) (k : Arr Byte 57), signBit k.1 = 1 → LibYes (nonceObserver m) xof k 2) ∧
      chance {x : ((Fin 2 → Out) × (Fin 2 → Fin q)) × (Fin 57 → Byte) |
        let A := RFC.secretScalar (List.ofFn x.2) • B
        (nonceObserver m (encodePoint A)).yes (imitate (nonceObserver m (encodePoint A)) A (coin x.1.2) (extend x.1.1) 2)} ≤ 1 / q := by
  constructor
  · intro xof k hk
    obtain ⟨pk, k1, k2⟩ := derive_spec xof k
    obtain ⟨sig, s1, s2⟩ := sign_spec xof k m
    have hs : keyScalar xof k.1 = RFC.secretScalar k.1 := by rw [keyScalar, if_neg (by omega)]
    have hseed : keySeed xof k.1 = leBytes 57 (RFC.secretScalar k.1) := by rw [keySeed, if_neg (by omega)]
    have hpk : scalarOf pk.1 = RFC.secretScalar k.1 := by rw [k2, hs]; exact scalarOf_spec _
    refine ⟨pk, k1, ?_⟩
    have e : libSeen (nonceObserver m pk.1).player xof k 2 = [RFC.hash xof (RFC.dom4 ++ leBytes 57 (scalarOf pk.1) ++ m) 114, sig.1] := by
      have e0 : ∀ s, libReply xof k (.hash s) = RFC.hash xof s 114 := fun _ => rfl
      have e1 : libReply xof k (.sign m) = sig.1 := by simp only [libReply, s1]
      simp only [libSeen, Observer.player, nonceObserver, List.nil_append, List.length_nil, List.length_singleton, if_true, one_ne_zero, if_false, e0, e1, List.singleton_append]
    rw [e]
    show sig.1.take 57 = encodePoint (leNat (RFC.hash xof (RFC.dom4 ++ leBytes 57 (scalarOf pk.1) ++ m) 114) • B)
    rw [s2, RFC.signWith, hseed, hpk]
    exact List.take_left' (encodePoint_length _)
  · have _ : Nonempty (Fin q) := ⟨⟨0, q_pos⟩⟩
    refine chance_prod_le _ _ fun a => ?_
    dsimp only
    generalize RFC.secretScalar (List.ofFn a) = s
    rw [chance_swap]
    refine chance_prod_le _ _ fun h => ?_
    have hz : ∀ z : Fin 2 → Fin q, (nonceObserver m (encodePoint (s • B))).yes
        (imitate (nonceObserver m (encodePoint (s • B))) (s • B) (coin z) (extend h) 2) → z 1 ∈ {v : Fin q | v.1 = (outNat (h 0) + outNat (h 1) * s) % q} := by
      intro z hy
      have e : imitate (nonceObserver m (encodePoint (s • B))) (s • B) (coin z) (extend h) 2 =
          [List.ofFn (h 0), encodePoint ((z 1).1 • B - outNat (h 1) • (s • B)) ++ leBytes 57 (z 1).1] := rfl
      rw [e] at hy
      have hy' : (encodePoint ((z 1).1 • B - outNat (h 1) • (s • B)) ++ leBytes 57 (z 1).1).take 57 = encodePoint (outNat (h 0) • B) := hy
      rw [List.take_left' (encodePoint_length _), encodePoint_inj, sub_eq_iff_eq_add, ← mul_smul, ← add_smul, smul_B_inj, Nat.mod_eq_of_lt (z 1).2] at hy'
      exact hy'
    refine (chance_imp hz).trans ?_
    rw [chance_at (1 : Fin 2) {v : Fin q | v.1 = (outNat (h 0) + outNat (h 1) * s) % q}]
    refine (chance_eq_le _ fun x hx y hy => Fin.ext (hx.trans hy.symm)).trans (le_of_eq ?_)
    rw [Nat.card_eq_fintype_card, Fintype.card_fin]

/-- For private keys without the sign bit the same observer hardly ever says yes. -/
theorem C99_nonces (m : List Byte) :
    chance {x : ordinaryKeys × (Short (m.length + 125) → Out) | LibYes (nonceObserver m) (hashOf x.2) (keyOf x.1) 2} ≤ 1 / q + 1 / 2 ^ 240 := by
  have h1 := C99_imitation (nonceObserver m) _ (nonceObserver_bounded m) 2 (by norm_num)
  have h2 := (C99_sign_bit m).2
  rw [abs_le] at h1
  linarith [h1.2]

/-! ## Concrete cases -/

/-- An observer who asks for a signature of one message again and again, and says yes if the last bit of the second half of the first one is 0. -/
def bitObserver (m : List Byte) : List Byte → Observer := fun _ => ⟨fun _ => .sign m, fun seen => (((seen.getD 0 []).getD 57 0).toNat % 2) = 0⟩

theorem bitObserver_bounded (m : List Byte) : Observer.Bounded (bitObserver m) (m.length + 125) := by
  refine ⟨by omega, fun pk _ seen => ⟨fun x hx => ?_, fun m' hx => ?_⟩⟩
  · cases hx
  · obtain rfl := Request.sign.inj hx
    omega

example : |chance {x : ordinaryKeys × (Short 126 → Out) | LibYes (bitObserver [7]) (hashOf x.2) (keyOf x.1) 5} -
      chance {x : ((Fin 5 → Out) × (Fin 5 → Fin q)) × (Fin 57 → Byte) |
        let A := RFC.secretScalar (List.ofFn x.2) • B
        (bitObserver [7] (encodePoint A)).yes (imitate (bitObserver [7] (encodePoint A)) A (coin x.1.2) (extend x.1.1) 5)}| ≤ 1 / 2 ^ 240 :=
  C99_imitation (bitObserver [7]) 126 (bitObserver_bounded [7]) 5 (by norm_num)

example : |chance {x : directKeys × (Short 126 → Out) | LibYes (bitObserver [7]) (hashOf x.2) (keyOf x.1) 5} -
      chance {x : ((Fin 5 → Out) × (Fin 5 → Fin q)) × (Fin 57 → Byte) |
        let A := RFC.secretScalar (List.ofFn x.2) • B
        (bitObserver [7] (encodePoint A)).yes (imitate (bitObserver [7] (encodePoint A)) A (coin x.1.2) (extend x.1.1) 5)}| ≤
      chance {x : ((Fin 5 → Out) × (Fin 5 → Fin q)) × (Fin 57 → Byte) |
        let s := RFC.secretScalar (List.ofFn x.2)
        (bitObserver [7] (encodePoint (s • B))).Finds (s • B) (coin x.1.2) (extend x.1.1) 5 s} + 1 / 2 ^ 240 :=
  C99_direct (bitObserver [7]) 126 (bitObserver_bounded [7]) 5 (by norm_num)

end Ed448
