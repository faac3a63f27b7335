import Verif.Properties.Owner
import Verif.Properties.ManyUsers
import Verif.Spec.Reader

/-!
# C101: a signature does not help with a message that one does not know
-/

namespace Ed448

set_option exponentiation.threshold 1000

/-! ## Replacing a value of a random function -/

/-- The value at a place that does not depend on it can be replaced by another random value. -/
theorem chance_replace {α ι β : Type} [DecidableEq ι] [Finite α] [Finite ι] [Finite β] [Nonempty α] [Nonempty β] (P : α → (ι → β) → Prop) (X : α → (ι → β) → ι)
    (hX : ∀ a f b, X a (Function.update f (X a f) b) = X a f) :
    chance {x : α × (ι → β) | P x.1 x.2} = chance {x : (β × α) × (ι → β) | P x.1.2 (Function.update x.2 (X x.1.2 x.2) x.1.1)} := by
  let σ : (β × α) × (ι → β) → (β × α) × (ι → β) := fun x => ((x.2 (X x.1.2 x.2), x.1.2), Function.update x.2 (X x.1.2 x.2) x.1.1)
  have hσ : Function.Involutive σ := by
    rintro ⟨⟨b, a⟩, f⟩
    simp only [σ, hX, Function.update_self, Function.update_idem, Function.update_eq_self]
  rw [← chance_snd (α := β) {x : α × (ι → β) | P x.1 x.2}, ← chance_equiv (Equiv.prodAssoc β α (ι → β)) fun x => x.2 ∈ {x : α × (ι → β) | P x.1 x.2},
    ← chance_equiv hσ.toPerm fun x => (Equiv.prodAssoc β α (ι → β) x).2 ∈ {x : α × (ι → β) | P x.1 x.2}]
  rfl

/-! ## The strings that are hashed for a signature -/

section

variable {L : ℕ} (k : Arr Byte 57)

/-- The string for the nonce. -/
def forNonce (f : Short L → Out) (m : List Byte) : List Byte := RFC.dom4 ++ keySeed (hashOf f) k.1 ++ m

/-- The string for the challenge, if the nonce is `o`. -/
noncomputable def forChallenge (f : Short L → Out) (m : List Byte) (o : Out) : List Byte :=
  RFC.dom4 ++ encodePoint (outNat o • B) ++ RFC.publicOf (keyScalar (hashOf f) k.1) ++ m

theorem forNonce_length (f : Short L → Out) (m : List Byte) : (forNonce k f m).length = 67 + m.length := by
  have hd : RFC.dom4.length = 10 := by decide
  rw [forNonce, List.length_append, List.length_append, keySeed_length, hd]

theorem forChallenge_length (f : Short L → Out) (m : List Byte) (o : Out) : (forChallenge k f m o).length = 124 + m.length := by
  have hd : RFC.dom4.length = 10 := by decide
  rw [forChallenge, List.length_append, List.length_append, List.length_append, encodePoint_length, RFC.publicOf, encodePoint_length, hd]

theorem forNonce_drop (f : Short L → Out) (m : List Byte) : (forNonce k f m).drop 67 = m := by
  have hd : RFC.dom4.length = 10 := by decide
  exact List.drop_left' (by rw [List.length_append, keySeed_length, hd])

theorem forChallenge_drop (f : Short L → Out) (m : List Byte) (o : Out) : (forChallenge k f m o).drop 124 = m := by
  have hd : RFC.dom4.length = 10 := by decide
  exact List.drop_left' (by rw [List.length_append, List.length_append, encodePoint_length, RFC.publicOf, encodePoint_length, hd])

open Classical in
theorem key_update (f : Short L → Out) (x : Short L) (b : Out) (hx : x.1.length ≠ 57) :
    keyScalar (hashOf (Function.update f x b)) k.1 = keyScalar (hashOf f) k.1 ∧ keySeed (hashOf (Function.update f x b)) k.1 = keySeed (hashOf f) k.1 := by
  have hne : k.1 ≠ x.1 := fun e => hx (by rw [← e, k.2])
  rw [keyScalar, keyScalar, keySeed, keySeed, hash_update f x b hne]
  exact ⟨rfl, rfl⟩

open Classical in
theorem strings_update (f : Short L → Out) (x : Short L) (b : Out) (hx : x.1.length ≠ 57) (m : List Byte) :
    forNonce k (Function.update f x b) m = forNonce k f m ∧ ∀ o, forChallenge k (Function.update f x b) m o = forChallenge k f m o := by
  obtain ⟨h1, h2⟩ := key_update k f x b hx
  exact ⟨by rw [forNonce, forNonce, h2], fun o => by rw [forChallenge, forChallenge, h1]⟩

/-- The public key. -/
noncomputable def thePublic (f : Short L → Out) : List Byte := RFC.publicOf (keyScalar (hashOf f) k.1)

/-- The signature, if the two values of the hash function are `a` and `b`. -/
noncomputable def signed (f : Short L → Out) (a b : Out) : List Byte := signFrom (keyScalar (hashOf f) k.1) (List.ofFn a) (List.ofFn b)

theorem forNonce_short (f : Short L → Out) {m : List Byte} (hm : m.length + 124 ≤ L) : forNonce k f m ∈ Short L := by
  show (forNonce k f m).length ≤ L
  rw [forNonce_length]
  omega

theorem forChallenge_short (f : Short L → Out) {m : List Byte} (hm : m.length + 124 ≤ L) (o : Out) : forChallenge k f m o ∈ Short L := by
  show (forChallenge k f m o).length ≤ L
  rw [forChallenge_length]
  omega

/-- The signature of `m`. -/
noncomputable def theSignature (f : Short L → Out) {m : List Byte} (hm : m.length + 124 ≤ L) : List Byte :=
  signed k f (f ⟨_, forNonce_short k f hm⟩) (f ⟨_, forChallenge_short k f hm (f ⟨_, forNonce_short k f hm⟩)⟩)

theorem theSignature_of {f : Short L → Out} {m : List Byte} {hm : m.length + 124 ≤ L} {a b : Out} (h1 : f ⟨_, forNonce_short k f hm⟩ = a)
    (h2 : f ⟨_, forChallenge_short k f hm a⟩ = b) : theSignature k f hm = signed k f a b := by
  subst h1 h2
  rfl

/-- What the library answers. -/
theorem library_answers (f : Short L → Out) {m : List Byte} (hm : m.length + 124 ≤ L) :
    (∃ A, ed448_derive_public (hashOf f) k = .ok A ∧ A.1 = thePublic k f) ∧ ∃ sig, ed448_sign (hashOf f) k m = .ok sig ∧ sig.1 = theSignature k f hm := by
  refine ⟨derive_spec (hashOf f) k, ?_⟩
  obtain ⟨sig, h1, h2⟩ := sign_spec (hashOf f) k m
  refine ⟨sig, h1, ?_⟩
  have v1 : List.ofFn (f ⟨_, forNonce_short k f hm⟩) = RFC.hash (hashOf f) (forNonce k f m) 114 := by
    rw [← outOf_hashOf f ⟨forNonce k f m, forNonce_short k f hm⟩, ofFn_outOf]
  have v2 : ∀ o, List.ofFn (f ⟨_, forChallenge_short k f hm o⟩) = RFC.hash (hashOf f) (forChallenge k f m o) 114 := fun o => by
    rw [← outOf_hashOf f ⟨forChallenge k f m o, forChallenge_short k f hm o⟩, ofFn_outOf]
  rw [h2, theSignature, signed, signFrom, v2, forChallenge, outNat, v1]
  rfl

/-- `f` with other values for the nonce and the challenge. -/
noncomputable def starred (f : Short L → Out) {m : List Byte} (hm : m.length + 124 ≤ L) (a b : Out) : Short L → Out :=
  open Classical in Function.update (Function.update f ⟨_, forNonce_short k f hm⟩ a) ⟨_, forChallenge_short k f hm a⟩ b

theorem starred_key (f : Short L → Out) {m : List Byte} (hm : m.length + 124 ≤ L) (a b : Out) :
    keyScalar (hashOf (starred k f hm a b)) k.1 = keyScalar (hashOf f) k.1 ∧ keySeed (hashOf (starred k f hm a b)) k.1 = keySeed (hashOf f) k.1 := by
  classical
  obtain ⟨h1, h2⟩ := key_update k f ⟨_, forNonce_short k f hm⟩ a (by rw [forNonce_length]; omega)
  obtain ⟨h3, h4⟩ := key_update k (Function.update f ⟨_, forNonce_short k f hm⟩ a) ⟨_, forChallenge_short k f hm a⟩ b (by rw [forChallenge_length]; omega)
  exact ⟨h3.trans h1, h4.trans h2⟩

/-- What the library answers with the other values. -/
theorem starred_answers (f : Short L → Out) {m : List Byte} (hm : m.length + 124 ≤ L) (a b : Out) {A : Arr Byte 57} {sig : Arr Byte 114}
    (hA : ed448_derive_public (hashOf (starred k f hm a b)) k = .ok A) (hs : ed448_sign (hashOf (starred k f hm a b)) k m = .ok sig) :
    A.1 = thePublic k f ∧ sig.1 = signed k f a b := by
  classical
  obtain ⟨h1, h2⟩ := starred_key k f hm a b
  obtain ⟨⟨A', a1, a2⟩, sig', s1, s2⟩ := library_answers k (starred k f hm a b) hm
  have e1 : A = A' := Except.ok.inj (hA.symm.trans a1)
  have e2 : sig = sig' := Except.ok.inj (hs.symm.trans s1)
  rw [e1, e2, a2, s2]
  have n1 : forNonce k (starred k f hm a b) m = forNonce k f m := by rw [forNonce, forNonce, h2]
  have n2 : ∀ o, forChallenge k (starred k f hm a b) m o = forChallenge k f m o := fun o => by rw [forChallenge, forChallenge, h1]
  have v1 : starred k f hm a b ⟨_, forNonce_short k (starred k f hm a b) hm⟩ = a := by
    have : (⟨_, forNonce_short k (starred k f hm a b) hm⟩ : Short L) = ⟨_, forNonce_short k f hm⟩ := Subtype.ext n1
    rw [this, starred, Function.update_of_ne, Function.update_self]
    intro e
    have := congrArg (fun x : Short L => x.1.length) e
    simp only [forNonce_length, forChallenge_length] at this
    omega
  have v2 : starred k f hm a b ⟨_, forChallenge_short k (starred k f hm a b) hm a⟩ = b := by
    have : (⟨_, forChallenge_short k (starred k f hm a b) hm a⟩ : Short L) = ⟨_, forChallenge_short k f hm a⟩ := Subtype.ext (n2 a)
    rw [this, starred, Function.update_self]
  rw [theSignature_of k v1 v2, thePublic, thePublic, signed, signed, h1]
  exact ⟨rfl, rfl⟩

/-- It is enough to consider the other values. -/
theorem chance_starred {N : ℕ} [NeZero N] (M : Fin N → List Byte) (hM : ∀ i, (M i).length + 124 ≤ L) (P : Fin N → (Short L → Out) → Prop) (c : ℚ)
    (h : ∀ f a b, chance {i | P i (starred k f (hM i) a b)} ≤ c) : chance {x : Fin N × (Short L → Out) | P x.1 x.2} ≤ c := by
  classical
  have e1 := chance_replace P (fun i f => ⟨_, forChallenge_short k f (hM i) (f ⟨_, forNonce_short k f (hM i)⟩)⟩) ?_
  · rw [e1]
    have e2 := chance_replace (fun (x : Out × Fin N) f => P x.2 (Function.update f ⟨_, forChallenge_short k f (hM x.2) (f ⟨_, forNonce_short k f (hM x.2)⟩)⟩ x.1))
      (fun x f => ⟨_, forNonce_short k f (hM x.2)⟩) ?_
    · rw [e2]
      let e : Fin N × (Out × Out × (Short L → Out)) ≃ (Out × (Out × Fin N)) × (Short L → Out) :=
        ⟨fun x => ((x.2.1, (x.2.2.1, x.1)), x.2.2.2), fun x => (x.1.2.2, (x.1.1, x.1.2.1, x.2)), fun _ => rfl, fun _ => rfl⟩
      rw [← chance_equiv e]
      refine chance_prod_le _ c fun ⟨a, b, f⟩ => ?_
      refine le_trans (le_of_eq (chance_congr fun i => ?_)) (h f a b)
      show P i _ ↔ P i _
      rw [starred]
      have hu := (strings_update k f ⟨_, forNonce_short k f (hM i)⟩ a (by rw [forNonce_length]; omega) (M i))
      have h1 : (⟨_, forNonce_short k (Function.update f ⟨_, forNonce_short k f (hM i)⟩ a) (hM i)⟩ : Short L) = ⟨_, forNonce_short k f (hM i)⟩ := Subtype.ext hu.1
      have h2 : (⟨_, forChallenge_short k (Function.update f ⟨_, forNonce_short k f (hM i)⟩ a) (hM i)
          (Function.update f ⟨_, forNonce_short k f (hM i)⟩ a ⟨_, forNonce_short k (Function.update f ⟨_, forNonce_short k f (hM i)⟩ a) (hM i)⟩)⟩ : Short L) =
          ⟨_, forChallenge_short k f (hM i) a⟩ := by
        refine Subtype.ext ?_
        show forChallenge k _ _ _ = _
        rw [h1, Function.update_self, hu.2]
      simp only [e, Equiv.coe_fn_mk, h2]
    · rintro ⟨_, i⟩ f b
      exact Subtype.ext (strings_update k f _ b (by rw [forNonce_length]; omega) (M i)).1
  · intro i f b
    refine Subtype.ext ?_
    have hl : (forChallenge k f (M i) (f ⟨_, forNonce_short k f (hM i)⟩)).length ≠ 57 := by rw [forChallenge_length]; omega
    have hu := strings_update k f ⟨_, forChallenge_short k f (hM i) (f ⟨_, forNonce_short k f (hM i)⟩)⟩ b hl (M i)
    show forChallenge k _ _ _ = forChallenge k _ _ _
    rw [hu.2, show (⟨_, forNonce_short k _ (hM i)⟩ : Short L) = ⟨_, forNonce_short k f (hM i)⟩ from Subtype.ext hu.1, Function.update_of_ne]
    intro e
    have := congrArg (fun x : Short L => x.1.length) e
    simp only [forNonce_length, forChallenge_length] at this
    omega

/-! ## Strings with the message -/

/-- One of the first `n` strings ends with the message, in one of the two ways. -/
def Found (next : List (List Byte) → List Byte) (xof : Xof) (n : ℕ) (m : List Byte) : Prop :=
  ∃ j < n, (chosen next xof j).drop 67 = m ∨ (chosen next xof j).drop 124 = m

theorem starred_replies (f : Short L → Out) {m : List Byte} (hm : m.length + 124 ≤ L) (a b : Out) {next : List (List Byte) → List Byte} {n : ℕ}
    (h : ¬ Found next (hashOf f) n m) : ∀ j ≤ n, replies next (hashOf (starred k f hm a b)) j = replies next (hashOf f) j := by
  classical
  intro j hj
  have h1 : ∀ i < n, chosen next (hashOf f) i ≠ forNonce k f m := fun i hi e => h ⟨i, hi, Or.inl (by rw [e, forNonce_drop])⟩
  have h2 : ∀ i < n, chosen next (hashOf f) i ≠ forChallenge k f m a := fun i hi e => h ⟨i, hi, Or.inr (by rw [e, forChallenge_drop])⟩
  rw [starred, replies_update, replies_update]
  · exact fun i hi => h1 i (by omega)
  · intro i hi
    rw [chosen_update]
    · exact h2 i (by omega)
    · exact fun i' hi' => h1 i' (by omega)

theorem starred_hit (f : Short L → Out) {m : List Byte} (hm : m.length + 124 ≤ L) (a b : Out) {next : List (List Byte) → List Byte} {n : ℕ}
    (h : Found next (hashOf (starred k f hm a b)) n m) : Found next (hashOf f) n m := by
  by_contra hn
  obtain ⟨j, hj, h⟩ := h
  rw [chosen, starred_replies k f hm a b hn j hj.le] at h
  exact hn ⟨j, hj, h⟩

end

/-- A message that is drawn at random is hardly ever one of those in `n` strings. -/
theorem chance_hit {N : ℕ} [NeZero N] (M : Fin N → List Byte) (hM : Function.Injective M) (next : List (List Byte) → List Byte) (xof : Xof) (n : ℕ) :
    chance {i | Found next xof n (M i)} ≤ 2 * n / N := by
  have h := chance_exists (α := Fin N) (ι := Fin n × Bool)
    (fun x i => M i = if x.2 then (chosen next xof x.1).drop 67 else (chosen next xof x.1).drop 124) (1 / N) fun x => ?_
  · rw [Fintype.card_prod, Fintype.card_fin, Fintype.card_bool] at h
    refine le_trans (chance_imp ?_) (h.trans (le_of_eq (by push_cast; ring)))
    rintro i ⟨j, hj, h | h⟩
    · exact ⟨(⟨j, hj⟩, true), h.symm⟩
    · exact ⟨(⟨j, hj⟩, false), h.symm⟩
  · have := chance_eq_le {i : Fin N | M i = if x.2 then (chosen next xof x.1).drop 67 else (chosen next xof x.1).drop 124} fun i hi j hj => hM (hi.trans hj.symm)
    rwa [Nat.card_fin] at this

theorem chance_is {N : ℕ} [NeZero N] (M : Fin N → List Byte) (hM : Function.Injective M) (m : List Byte) : chance {i | m = M i} ≤ 1 / N := by
  have := chance_eq_le {i : Fin N | m = M i} fun i hi j hj => hM (hi.symm.trans hj)
  rwa [Nat.card_fin] at this

theorem Reader.seen_eq {α : Type} (r : Reader α) (xof : Xof) : ∀ n, r.seen xof n = replies r.next xof n
  | 0 => rfl
  | n + 1 => by rw [Reader.seen, replies, r.seen_eq xof n]

/-- C101. Somebody with unlimited computing power knows the private key `k` and sees the signature of a message that is drawn at random from `N` different ones, but not the
message. They ask for `n` values of a random hash function. Then the chance that they know the message is at most `(2 n + 1) / N`: nothing is better than trying
messages. -/
theorem C101_hidden {N : ℕ} [NeZero N] (k : Arr Byte 57) (M : Fin N → List Byte) (hM : Function.Injective M) (L : ℕ) (hL : ∀ i, (M i).length + 124 ≤ L)
    (R : List Byte → List Byte → Reader (List Byte)) (n : ℕ) :
    chance {x : Fin N × (Short L → Out) | ∃ pk sig, ed448_derive_public (hashOf x.2) k = .ok pk ∧ ed448_sign (hashOf x.2) k (M x.1) = .ok sig ∧
      (R pk.1 sig.1).says (hashOf x.2) n = M x.1} ≤ (2 * n + 1) / N := by
  refine chance_starred k M hL (fun i f => ∃ pk sig, ed448_derive_public (hashOf f) k = .ok pk ∧ ed448_sign (hashOf f) k (M i) = .ok sig ∧
      (R pk.1 sig.1).says (hashOf f) n = M i) _ fun f a b => ?_
  let r := R (thePublic k f) (signed k f a b)
  refine (chance_or (chance_hit M hM r.next (hashOf f) n) (chance_is M hM (r.says (hashOf f) n)) ?_).trans (le_of_eq (by ring))
  rintro i ⟨pk, sig, h1, h2, h3⟩
  obtain ⟨e1, e2⟩ := starred_answers k f (hL i) a b h1 h2
  rw [e1, e2] at h3
  rcases Classical.em (Found r.next (hashOf f) n (M i)) with h | h
  · exact Or.inl h
  · refine Or.inr ?_
    rw [← h3, Reader.says, Reader.says, Reader.seen_eq, Reader.seen_eq, starred_replies k f (hL i) a b h n le_rfl]

/-! ## Signatures of the message under other keys -/

/-- The challenge for a signature has a random value. -/
theorem chance_validWith (ρ : Reading) (pk sig : List Byte) (hs : ¬ SmallOrder pk) : chance {o | ValidWith ρ pk sig o} ≤ 1 / q + 1 / 2 ^ 912 := by
  rcases Classical.em (∃ o, ValidWith ρ pk sig o) with ⟨o₀, _, A, R, h2, h3, h4⟩ | h
  · refine (chance_imp fun o ho => ?_).trans (chance_residue (outNat o₀ % q))
    obtain ⟨_, A', R', k2, k3, k4⟩ := ho
    rw [decodesTo_iff.mp h2, decodesTo_iff, encodePoint_inj] at k2
    rw [← k2, RFC.Equation] at k4
    rw [RFC.Equation] at h4
    rw [h4, ρ.same h3 k3] at k4
    exact ((smul_four_inj (fun e => hs ⟨A, h2, e⟩) _ _).mp (add_left_cancel k4)).symm
  · refine le_trans (le_of_eq ?_) (by positivity : (0 : ℚ) ≤ 1 / q + 1 / 2 ^ 912)
    exact chance_none fun o ho => h ⟨o, ho⟩

/-- The answer, a public key and a signature, is a signature of `m` with another key or another first half. `Ok shake pk m sig` says that a signature counts. -/
def Resigns (Ok : Xof → List Byte → List Byte → List Byte → Prop) (k : Arr Byte 57) (R : List Byte → List Byte → Reader (List Byte × List Byte)) (xof : Xof) (n : ℕ)
    (m : List Byte) : Prop :=
  ∃ pk sig, ed448_derive_public xof k = .ok pk ∧ ed448_sign xof k m = .ok sig ∧
    let c := (R pk.1 sig.1).says xof n
    (c.1, c.2.take 57) ≠ (pk.1, sig.1.take 57) ∧ ¬ SmallOrder c.1 ∧ Ok xof c.1 m c.2

section

variable {L : ℕ} (k : Arr Byte 57)

open Classical in
/-- The key and the signature do not change with the value for another string. -/
theorem answers_update (f : Short L → Out) {m : List Byte} (hm : m.length + 124 ≤ L) (x : Short L) (b : Out) (hx : x.1.length ≠ 57) (h1 : x.1 ≠ forNonce k f m)
    (h2 : x.1 ≠ forChallenge k f m (f ⟨_, forNonce_short k f hm⟩)) :
    thePublic k (Function.update f x b) = thePublic k f ∧ theSignature k (Function.update f x b) hm = theSignature k f hm := by
  have hk := (key_update k f x b hx).1
  have hu := strings_update k f x b hx m
  have v1 : Function.update f x b ⟨_, forNonce_short k (Function.update f x b) hm⟩ = f ⟨_, forNonce_short k f hm⟩ := by
    rw [show (⟨_, forNonce_short k (Function.update f x b) hm⟩ : Short L) = ⟨_, forNonce_short k f hm⟩ from Subtype.ext hu.1, Function.update_of_ne]
    exact fun e => h1 (congrArg Subtype.val e).symm
  have v2 : Function.update f x b ⟨_, forChallenge_short k (Function.update f x b) hm (f ⟨_, forNonce_short k f hm⟩)⟩ =
      f ⟨_, forChallenge_short k f hm (f ⟨_, forNonce_short k f hm⟩)⟩ := by
    rw [show (⟨_, forChallenge_short k (Function.update f x b) hm (f ⟨_, forNonce_short k f hm⟩)⟩ : Short L) =
      ⟨_, forChallenge_short k f hm (f ⟨_, forNonce_short k f hm⟩)⟩ from Subtype.ext (hu.2 _), Function.update_of_ne]
    exact fun e => h2 (congrArg Subtype.val e).symm
  rw [theSignature_of k v1 v2, thePublic, thePublic, theSignature, signed, signed, hk]
  exact ⟨rfl, rfl⟩

theorem theSignature_take (f : Short L → Out) {m : List Byte} (hm : m.length + 124 ≤ L) :
    (theSignature k f hm).take 57 = encodePoint (outNat (f ⟨_, forNonce_short k f hm⟩) • B) := by
  rw [theSignature, signed, signFrom, outNat]
  exact List.take_left' (encodePoint_length _)

/-- A new signature of a message that is in none of the strings. -/
theorem chance_unseen (ρ : Reading) (R : List Byte → List Byte → Reader (List Byte × List Byte)) (n : ℕ) {m : List Byte} (hm : m.length + 124 ≤ L) :
    chance {f : Short L → Out | ¬ Found (R (thePublic k f) (theSignature k f hm)).next (hashOf f) n m ∧ Resigns (Loose ρ) k R (hashOf f) n m} ≤ 1 / q + 1 / 2 ^ 912 := by
  classical
  have hd : RFC.dom4.length = 10 := by decide
  let r : (Short L → Out) → Reader (List Byte × List Byte) := fun f => R (thePublic k f) (theSignature k f hm)
  let c : (Short L → Out) → List Byte × List Byte := fun f => (r f).says (hashOf f) n
  have hsh : ∀ f, challengeString ((c f).1.take 57) m (c f).2 ∈ Short L := fun f => by
    show (challengeString ((c f).1.take 57) m (c f).2).length ≤ L
    rw [challengeString, List.length_append, List.length_append, List.length_append, hd, List.length_take, List.length_take]
    omega
  let X : (Short L → Out) → Short L := fun f => ⟨_, hsh f⟩
  let G : (Short L → Out) → Prop := fun f => ¬ Found (r f).next (hashOf f) n m ∧ (c f).1.length = 57 ∧ 57 ≤ (c f).2.length ∧
    ((c f).1, (c f).2.take 57) ≠ (thePublic k f, (theSignature k f hm).take 57)
  have hlen : ∀ f, G f → (X f).1.length = 124 + m.length := fun f ⟨_, g2, g3, _⟩ => by
    show (challengeString ((c f).1.take 57) m (c f).2).length = _
    rw [challengeString, List.length_append, List.length_append, List.length_append, hd, List.length_take, List.length_take]
    omega
  have hdrop : ∀ f, G f → (X f).1.drop 124 = m := fun f ⟨_, g2, g3, _⟩ =>
    List.drop_left' (by rw [List.length_append, List.length_append, hd, List.length_take, List.length_take]; omega)
  have key : ∀ f b, G f → r (Function.update f (X f) b) = r f ∧ (∀ j ≤ n, replies (r f).next (hashOf (Function.update f (X f) b)) j = replies (r f).next (hashOf f) j) ∧
      thePublic k (Function.update f (X f) b) = thePublic k f ∧ theSignature k (Function.update f (X f) b) hm = theSignature k f hm := by
    intro f b g
    have hl := hlen f g
    have ha := answers_update k f hm (X f) b (by omega) (fun e => by rw [e, forNonce_length] at hl; omega) ?_
    · refine ⟨?_, fun j hj => replies_update f (X f) b j fun i hi e => g.1 ⟨i, by omega, Or.inr (by rw [e, hdrop f g])⟩, ha⟩
      show R _ _ = R _ _
      rw [ha.1, ha.2]
    · intro e
      obtain ⟨_, g2, g3, g4⟩ := g
      refine g4 ?_
      have e' : RFC.dom4 ++ (c f).2.take 57 ++ (c f).1.take 57 ++ m = RFC.dom4 ++ encodePoint (outNat (f ⟨_, forNonce_short k f hm⟩) • B) ++ thePublic k f ++ m := e
      rw [List.append_assoc, List.append_assoc, List.append_assoc, List.append_assoc, List.append_cancel_left_eq] at e'
      obtain ⟨i1, i2⟩ := List.append_inj e' (by rw [List.length_take, encodePoint_length]; omega)
      obtain ⟨i3, _⟩ := List.append_inj i2 (by rw [List.length_take, thePublic, RFC.publicOf, encodePoint_length]; omega)
      rw [theSignature_take, i1, ← i3, List.take_of_length_le g2.le]
  have keyc : ∀ f b, G f → c (Function.update f (X f) b) = c f := fun f b g => by
    obtain ⟨k1, k2, _⟩ := key f b g
    show (r _).says _ n = (r f).says _ n
    rw [k1, Reader.says, Reader.says, Reader.seen_eq, Reader.seen_eq, k2 n le_rfl]
  have h := chance_resample_on G X (fun f o => ValidWith ρ (c f).1 (c f).2 o ∧ ¬ SmallOrder (c f).1) ?_ ?_ ?_ (1 / q + 1 / 2 ^ 912) (by positivity) ?_
  · refine (chance_imp ?_).trans h
    rintro f ⟨hn, pk, sig, d1, d2, hne, hs, hv⟩
    obtain ⟨⟨A', a1, a2⟩, sig', s1, s2⟩ := library_answers k f hm
    have e1 : pk = A' := Except.ok.inj (d1.symm.trans a1)
    have e2 : sig = sig' := Except.ok.inj (d2.symm.trans s1)
    rw [e1, e2, a2, s2] at hne hs hv
    have hlp : (c f).1.length = 57 := by
      obtain ⟨_, A, _, hA, _⟩ := hv
      rw [show (c f).1 = encodePoint A from decodesTo_iff.mp hA, encodePoint_length]
    have hls : 57 ≤ (c f).2.length := le_trans (by norm_num) hv.1
    refine ⟨⟨hn, hlp, hls, hne⟩, ?_, hs⟩
    have hv' := (validWith_iff (ρ := ρ) (hashOf f) (c f).1 m (c f).2).mpr hv
    have hX : challengeString (c f).1 m (c f).2 = (X f).1 := by
      show _ = challengeString ((c f).1.take 57) m (c f).2
      rw [List.take_of_length_le hlp.le]
    rwa [hX, outOf_hashOf] at hv'
  · rintro f b g
    obtain ⟨k1, k2, k3, k4⟩ := key f b g
    obtain ⟨g1, g2, g3, g4⟩ := g
    refine ⟨?_, by rw [keyc f b ⟨g1, g2, g3, g4⟩]; exact g2, by rw [keyc f b ⟨g1, g2, g3, g4⟩]; exact g3, by rw [keyc f b ⟨g1, g2, g3, g4⟩, k3, k4]; exact g4⟩
    rw [k1]
    rintro ⟨j, hj, h⟩
    rw [chosen, k2 j hj.le] at h
    exact g1 ⟨j, hj, h⟩
  · intro f b g
    refine Subtype.ext ?_
    show challengeString _ m _ = challengeString _ m _
    rw [keyc f b g]
  · intro f b g
    simp only [keyc f b g]
  · intro f _
    rcases Classical.em (SmallOrder (c f).1) with hs | hs
    · refine le_trans (le_of_eq ?_) (by positivity : (0 : ℚ) ≤ 1 / q + 1 / 2 ^ 912)
      exact chance_none fun o ho => ho.2 hs
    · exact (chance_imp fun o ho => ho.1).trans (chance_validWith ρ _ _ hs)

end

/-- C101. Somebody as above shows a public key and a signature. The chance that the signature is valid for the unknown message, in the weaker form of C86, is hardly more
than `2 n / N`, unless they repeat the first half of the signature with the same key. -/
theorem C101_resign (ρ : Reading) {N : ℕ} [NeZero N] (k : Arr Byte 57) (M : Fin N → List Byte) (hM : Function.Injective M) (L : ℕ) (hL : ∀ i, (M i).length + 124 ≤ L)
    (R : List Byte → List Byte → Reader (List Byte × List Byte)) (n : ℕ) :
    chance {x : Fin N × (Short L → Out) | Resigns (Loose ρ) k R (hashOf x.2) n (M x.1)} ≤ 2 * n / N + (1 / q + 1 / 2 ^ 912) := by
  have h1 : chance {x : Fin N × (Short L → Out) | Found (R (thePublic k x.2) (theSignature k x.2 (hL x.1))).next (hashOf x.2) n (M x.1)} ≤ 2 * n / N := by
    refine chance_starred k M hL (fun i f => Found (R (thePublic k f) (theSignature k f (hL i))).next (hashOf f) n (M i)) _ fun f a b => ?_
    refine (chance_imp fun i hi => ?_).trans (chance_hit M hM (R (thePublic k f) (signed k f a b)).next (hashOf f) n)
    obtain ⟨⟨A, a1, a2⟩, sig, s1, s2⟩ := library_answers k (starred k f (hL i) a b) (hL i)
    obtain ⟨e1, e2⟩ := starred_answers k f (hL i) a b a1 s1
    rw [← a2, ← s2, e1, e2] at hi
    exact starred_hit k f (hL i) a b hi
  have h2 : chance {x : Fin N × (Short L → Out) | ¬ Found (R (thePublic k x.2) (theSignature k x.2 (hL x.1))).next (hashOf x.2) n (M x.1) ∧
      Resigns (Loose ρ) k R (hashOf x.2) n (M x.1)} ≤ 1 / q + 1 / 2 ^ 912 := by
    rw [chance_swap]
    exact chance_prod_le _ _ fun i => chance_unseen k ρ R n (hL i)
  exact chance_or h1 h2 fun x hx => (Classical.em _).imp id fun h => ⟨h, hx⟩

/-- The answer is any other pair of a key and a signature. -/
def ResignsAnyhow (Ok : Xof → List Byte → List Byte → List Byte → Prop) (k : Arr Byte 57) (R : List Byte → List Byte → Reader (List Byte × List Byte)) (xof : Xof)
    (n : ℕ) (m : List Byte) : Prop :=
  ∃ pk sig, ed448_derive_public xof k = .ok pk ∧ ed448_sign xof k m = .ok sig ∧
    let c := (R pk.1 sig.1).says xof n
    (c.1, c.2) ≠ (pk.1, sig.1) ∧ ¬ SmallOrder c.1 ∧ Ok xof c.1 m c.2

/-- A valid signature is given by its first half. -/
theorem valid_half {xof : Xof} {pk m sig sig' : List Byte} (h : RFC.Valid xof pk m sig) (h' : RFC.Valid xof pk m sig') (e : sig.take 57 = sig'.take 57) : sig = sig' := by
  obtain ⟨l, A, R, a1, a2, a3, a4⟩ := h
  obtain ⟨l', A', R', b1, b2, b3, b4⟩ := h'
  rw [decodesTo_iff.mp a1, decodesTo_iff, encodePoint_inj] at b1
  rw [← e, decodesTo_iff.mp a2, decodesTo_iff, encodePoint_inj] at b2
  rw [← e, ← b1, ← b2] at b4
  have h1 := C46_unique_S _ _ _ _ _ a4 b4
  rw [Nat.mod_eq_of_lt a3, Nat.mod_eq_of_lt b3] at h1
  have h2 : sig.drop 57 = sig'.drop 57 := leNat_inj (by rw [List.length_drop, List.length_drop, l, l']) h1
  rw [← List.take_append_drop 57 sig, ← List.take_append_drop 57 sig', e, h2]

/-- C101, for validity as in RFC 8032: not even another second half is found. -/
theorem C101_valid {N : ℕ} [NeZero N] (k : Arr Byte 57) (M : Fin N → List Byte) (hM : Function.Injective M) (L : ℕ) (hL : ∀ i, (M i).length + 124 ≤ L)
    (R : List Byte → List Byte → Reader (List Byte × List Byte)) (n : ℕ) :
    chance {x : Fin N × (Short L → Out) | ResignsAnyhow RFC.Valid k R (hashOf x.2) n (M x.1)} ≤ 2 * n / N + (1 / q + 1 / 2 ^ 912) := by
  refine (chance_imp ?_).trans (C101_resign plain k M hM L hL R n)
  rintro x ⟨pk, sig, h1, h2, h3, h4, h5⟩
  refine ⟨pk, sig, h1, h2, fun e => h3 ?_, h4, valid_loose h5⟩
  obtain ⟨pk', sig', k1, k2, k3, _⟩ := C57_valid_elsewhere (hashOf x.2) k (M x.1)
  rw [← Except.ok.inj (h1.symm.trans k1), ← Except.ok.inj (h2.symm.trans k2)] at k3
  have e1 : ((R pk.1 sig.1).says (hashOf x.2) n).1 = pk.1 := congrArg Prod.fst e
  have e2 : ((R pk.1 sig.1).says (hashOf x.2) n).2.take 57 = sig.1.take 57 := congrArg Prod.snd e
  rw [e1] at h5
  exact Prod.ext e1 (valid_half h5 k3 e2)

/-- C101, for the verifier with the six repairs (C80). -/
theorem C101_repaired {N : ℕ} [NeZero N] (k : Arr Byte 57) (M : Fin N → List Byte) (hM : Function.Injective M) (L : ℕ) (hL : ∀ i, (M i).length + 124 ≤ L)
    (R : List Byte → List Byte → Reader (List Byte × List Byte)) (n : ℕ) :
    chance {x : Fin N × (Short L → Out) | ResignsAnyhow (fun xof pk m sig => Repaired.ed448_verify xof pk sig m = .ok (.ok true)) k R (hashOf x.2) n (M x.1)} ≤
      2 * n / N + (1 / q + 1 / 2 ^ 912) := by
  refine (chance_imp ?_).trans (C101_valid k M hM L hL R n)
  rintro x ⟨pk, sig, h1, h2, h3, h4, h5⟩
  exact ⟨pk, sig, h1, h2, h3, h4, ((C80_exact _ _ _ _).1.mp h5).2⟩

/-- C101, for keys that the library derives and a verifier that contains the first repair, the exact comparison. -/
theorem C101_one_repair (r : Repairs) (hr : r.limb15 = true) {N : ℕ} [NeZero N] (k : Arr Byte 57) (M : Fin N → List Byte) (hM : Function.Injective M) (L : ℕ)
    (hL : ∀ i, (M i).length + 124 ≤ L) (R : List Byte → List Byte → Reader (List Byte × List Byte)) (n : ℕ) :
    chance {x : Fin N × (Short L → Out) | Resigns (fun xof pk m sig => Derived xof pk ∧ r.ed448_verify xof pk sig m = .ok (.ok true)) k R (hashOf x.2) n (M x.1)} ≤
      2 * n / N + (1 / q + 1 / 2 ^ 912) := by
  refine (chance_imp ?_).trans (C101_resign plain k M hM L hL R n)
  rintro x ⟨pk, sig, h1, h2, h3, h4, ⟨k', A, hk, e⟩, h5⟩
  refine ⟨pk, sig, h1, h2, h3, h4, ?_⟩
  rw [← e] at h5 ⊢
  exact C87_loose r hr _ k' A _ _ hk h5

/-- C101, for keys that the library derives and the verifier as it is: what is added is the chance of a near miss (C96). -/
theorem C101_as_is {N : ℕ} [NeZero N] (k : Arr Byte 57) (M : Fin N → List Byte) (hM : Function.Injective M) (L : ℕ) (hL : ∀ i, (M i).length + 124 ≤ L)
    (R : List Byte → List Byte → Reader (List Byte × List Byte)) (n : ℕ) (u : ℚ)
    (hu : chance {x : Fin N × (Short L → Out) | Resigns NearMiss k R (hashOf x.2) n (M x.1)} ≤ u) :
    chance {x : Fin N × (Short L → Out) | Resigns (fun xof pk m sig => Derived xof pk ∧ ed448_verify xof pk sig m = .ok (.ok true)) k R (hashOf x.2) n (M x.1)} ≤
      2 * n / N + (1 / q + 1 / 2 ^ 912) + u := by
  refine chance_or (C101_resign asRead k M hM L hL R n) hu ?_
  rintro x ⟨pk, sig, h1, h2, h3, h4, ⟨k', A, hk, e⟩, h5⟩
  rcases Classical.em (Loose asRead (hashOf x.2) ((R pk.1 sig.1).says (hashOf x.2) n).1 (M x.1) ((R pk.1 sig.1).says (hashOf x.2) n).2) with h | h
  · exact Or.inl ⟨pk, sig, h1, h2, h3, h4, h⟩
  · refine Or.inr ⟨pk, sig, h1, h2, h3, h4, ?_⟩
    rw [← e] at h5 h ⊢
    exact (C96_accepted _ k' A _ _ hk h5).1.mpr h

/-! ## Concrete cases -/

/-- Sixteen messages of one byte, and strings of up to 125 bytes. -/
example : Function.Injective (fun i : Fin 16 => [BitVec.ofFin (w := 8) (Fin.castLE (by norm_num) i)]) ∧
    ∀ i : Fin 16, [BitVec.ofFin (w := 8) (Fin.castLE (by norm_num) i)].length + 124 ≤ 125 := by
  refine ⟨fun i j h => ?_, fun _ => le_rfl⟩
  have := congrArg (fun l : List Byte => (l.headD 0).toNat) h
  exact Fin.ext this

/-- Guessing without a value of the hash function: the chance is `1 / N`, so that the bound for `n = 0` is reached. -/
theorem C101_guess {N : ℕ} [NeZero N] (k : Arr Byte 57) (M : Fin N → List Byte) (hM : Function.Injective M) (L : ℕ) (i : Fin N) :
    chance {x : Fin N × (Short L → Out) | ∃ pk sig, ed448_derive_public (hashOf x.2) k = .ok pk ∧ ed448_sign (hashOf x.2) k (M x.1) = .ok sig ∧
      (⟨fun _ => [], fun _ => M i⟩ : Reader (List Byte)).says (hashOf x.2) 0 = M x.1} = 1 / N := by
  have h : chance {x : Fin N × (Short L → Out) | x.1 ∈ ({i} : Set (Fin N))} = 1 / N := by
    rw [chance_fst, chance, Set.ncard_singleton, Nat.card_fin, Nat.cast_one]
  rw [← h]
  refine chance_congr fun x => ?_
  obtain ⟨pk, a1, _⟩ := derive_spec (hashOf x.2) k
  obtain ⟨sig, s1, _⟩ := sign_spec (hashOf x.2) k (M x.1)
  exact ⟨fun ⟨_, _, _, _, h⟩ => (hM h).symm, fun h => ⟨pk, sig, a1, s1, by rw [show x.1 = i from h]; rfl⟩⟩

/-! ## Trying messages -/

/-- `RFC.Valid`, if the challenge is `c`. -/
def ValidBy (pk sig : List Byte) (c : ℕ) : Prop :=
  sig.length = 114 ∧ ∃ A R : E, RFC.DecodesTo pk A ∧ RFC.DecodesTo (sig.take 57) R ∧ leNat (sig.drop 57) < q ∧ RFC.Equation (leNat (sig.drop 57)) R A c

open Classical in
/-- Somebody who asks for the challenges of all messages and answers with the first one for which the signature is valid. They need the public key only. -/
noncomputable def tryAll {N : ℕ} [NeZero N] (M : Fin N → List Byte) (pk sig : List Byte) : Reader (List Byte) where
  next l := challengeString pk (M (Fin.ofNat N l.length)) sig
  answer l := if h : ∃ j : ℕ, j < N ∧ ValidBy pk sig (leNat (l.getD j [])) then M (Fin.ofNat N (Nat.find h)) else []

theorem seen_getD {α : Type} (r : Reader α) (xof : Xof) (n : ℕ) : ∀ t, (r.seen xof (n + 1 + t)).getD n [] = RFC.hash xof (r.next (r.seen xof n)) 114
  | 0 => by
    have hl : (r.seen xof n).length = n := by rw [Reader.seen_eq, replies_length]
    rw [Nat.add_zero, Reader.seen, List.getD_eq_getElem?_getD, List.getElem?_append_right hl.le, hl, Nat.sub_self]
    rfl
  | t + 1 => by
    have hl : (r.seen xof (n + 1 + t)).length = n + 1 + t := by rw [Reader.seen_eq, replies_length]
    rw [← Nat.add_assoc, Reader.seen, List.getD_eq_getElem?_getD, List.getElem?_append_left (by omega), ← List.getD_eq_getElem?_getD, seen_getD r xof n t]

theorem tryAll_value {N : ℕ} [NeZero N] (M : Fin N → List Byte) (pk sig : List Byte) (xof : Xof) (j : ℕ) (hj : j < N) :
    leNat (((tryAll M pk sig).seen xof N).getD j []) = RFC.challenge xof (sig.take 57) pk (M (Fin.ofNat N j)) := by
  have h := seen_getD (tryAll M pk sig) xof j (N - (j + 1))
  rw [show j + 1 + (N - (j + 1)) = N by omega] at h
  have hl : ((tryAll M pk sig).seen xof j).length = j := by rw [Reader.seen_eq, replies_length]
  have hn : (tryAll M pk sig).next ((tryAll M pk sig).seen xof j) = challengeString pk (M (Fin.ofNat N ((tryAll M pk sig).seen xof j).length)) sig := rfl
  rw [h, hn, hl]
  rfl

/-- C101. Trying messages works, and needs the public key only: somebody who asks for `N` values of the hash function finds one of the `N` messages for which the signature
is valid. By C98 this is the signed one, unless they have found a signature with two meanings. -/
theorem C101_trying {N : ℕ} [NeZero N] (xof : Xof) (k : Arr Byte 57) (M : Fin N → List Byte) (i : Fin N) :
    ∃ pk sig, ed448_derive_public xof k = .ok pk ∧ ed448_sign xof k (M i) = .ok sig ∧
      let m := (tryAll M pk.1 sig.1).says xof N
      (∃ j, m = M j) ∧ RFC.Valid xof pk.1 m sig.1 := by
  classical
  obtain ⟨pk, sig, h1, h2, h3, _⟩ := C57_valid_elsewhere xof k (M i)
  refine ⟨pk, sig, h1, h2, ?_⟩
  have hi : Fin.ofNat N i.1 = i := Fin.ext (Nat.mod_eq_of_lt i.2)
  have h : ∃ j : ℕ, j < N ∧ ValidBy pk.1 sig.1 (leNat (((tryAll M pk.1 sig.1).seen xof N).getD j [])) := by
    refine ⟨i.1, i.2, ?_⟩
    rw [tryAll_value M pk.1 sig.1 xof i.1 i.2, hi]
    exact h3
  have hs := Nat.find_spec h
  have e : (tryAll M pk.1 sig.1).says xof N = M (Fin.ofNat N (Nat.find h)) := dif_pos h
  dsimp only
  rw [e]
  rw [tryAll_value M pk.1 sig.1 xof _ hs.1] at hs
  exact ⟨⟨_, rfl⟩, hs.2⟩

end Ed448
