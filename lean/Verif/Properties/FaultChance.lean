import Verif.Properties.Fault
import Verif.Properties.Line

/-!
# C110: how likely it is that a disturbed first half gives away the secret
-/

namespace Ed448

set_option exponentiation.threshold 1000

/-- The fault that changes bits of the first half of the signature. -/
def Faults.garbled (e : Arr Byte 57) : Faults := { Faults.none with first := fun l => ⟨garble e.1 l.1, by rw [garble_length (by rw [e.2, l.2]), l.2]⟩ }

/-- C110. Any bits of the first half are changed while the library makes a signature. For every private key, every message and every choice of bits, the chance over a random
hash function that the secret scalar cannot be computed from the right signature and the disturbed one is hardly more than `2 / q`. -/
theorem C110_chance (k : Arr Byte 57) (m : List Byte) (e : Arr Byte 57) (hne : e.1 ≠ noError 57) (L : ℕ) (hm : m.length + 124 ≤ L) :
    chance {f : Short L → Out | ∃ A sig sig', ed448_derive_public (hashOf f) k = .ok A ∧ ed448_sign (hashOf f) k m = .ok sig ∧
      Faulty.ed448_sign (.garbled e) (hashOf f) k m = .ok sig' ∧
      keyScalar (hashOf f) k.1 % q ≠ quotient (leNat (sig.1.drop 57)) (leNat (sig'.1.drop 57)) (RFC.challenge (hashOf f) (sig.1.take 57) A.1 m)
        (RFC.challenge (hashOf f) (sig'.1.take 57) A.1 m)} ≤ 1 / 2 ^ 443 := by
  classical
  refine le_trans ?_ small_line
  have hd : RFC.dom4.length = 10 := by decide
  let a : (Short L → Out) → List Byte := fun f => thePublic k f
  let s : (Short L → Out) → List Byte := fun f => theSignature k f hm
  let s' : (Short L → Out) → List Byte := fun f => garble e.1 ((theSignature k f hm).take 57)
  have hla : ∀ f, (a f).length = 57 := fun f => thePublic_length k f
  have hls : ∀ f, (s f).length = 114 := fun f => theSignature_length k f hm
  have hls' : ∀ f, (s' f).length = 57 := fun f => by
    have : ((theSignature k f hm).take 57).length = 57 := by rw [List.length_take, theSignature_length]; rfl
    exact (garble_length (by rw [e.2, this])).trans this
  have hlen : ∀ f, (challengeString (a f) m (s f)).length = 124 + m.length := fun f => by
    rw [challengeString, List.length_append, List.length_append, List.length_append, hd, hla, List.length_take, hls]
    omega
  have hlen' : ∀ f, (challengeString (a f) m (s' f)).length = 124 + m.length := fun f => by
    rw [challengeString, List.length_append, List.length_append, List.length_append, hd, hla, List.length_take, hls']
    omega
  let Y : (Short L → Out) → Short L := fun f => ⟨challengeString (a f) m (s f), by show _ ≤ L; rw [hlen]; omega⟩
  let X : (Short L → Out) → Short L := fun f => ⟨challengeString (a f) m (s' f), by show _ ≤ L; rw [hlen']; omega⟩
  let G : (Short L → Out) → Prop := fun f => (X f).1 ≠ forNonce k f m
  have hY : ∀ f, (Y f).1 = forChallenge k f m (f ⟨_, forNonce_short k f hm⟩) := fun f => by
    show RFC.dom4 ++ (theSignature k f hm).take 57 ++ thePublic k f ++ m = _
    rw [theSignature_take]
    rfl
  have hXY : ∀ f, (X f).1 ≠ (Y f).1 := fun f h => by
    have h' : RFC.dom4 ++ (s' f).take 57 ++ a f ++ m = RFC.dom4 ++ (s f).take 57 ++ a f ++ m := h
    rw [List.append_cancel_right_eq, List.append_cancel_right_eq, List.append_cancel_left_eq, List.take_of_length_le (hls' f).le] at h'
    have j := garble_self (by rw [e.2, List.length_take, theSignature_length]; rfl) h'
    rw [e.2] at j
    exact hne j
  have hc : ∀ f, (X f).1 ≠ forChallenge k f m (f ⟨_, forNonce_short k f hm⟩) := fun f => by rw [← hY]; exact hXY f
  have key : ∀ f b, G f → a (Function.update f (X f) b) = a f ∧ s (Function.update f (X f) b) = s f := fun f b g =>
    answers_update k f hm (X f) b (by rw [show (X f).1.length = _ from hlen' f]; omega) g (hc f)
  have key' : ∀ f b, G f → s' (Function.update f (X f) b) = s' f := fun f b g => congrArg (fun l => garble e.1 (l.take 57)) (key f b g).2
  have hX : ∀ f b, G f → X (Function.update f (X f) b) = X f := fun f b g => by
    refine Subtype.ext ?_
    show challengeString _ m _ = challengeString _ m _
    rw [(key f b g).1, key' f b g]
  have hY' : ∀ f b, G f → Y (Function.update f (X f) b) = Y f := fun f b g => by
    refine Subtype.ext ?_
    show challengeString _ m _ = challengeString _ m _
    rw [(key f b g).1, (key f b g).2]
  have h := chance_resample_on G X (fun f o => outNat o % q = outNat (f (Y f)) % q) ?_ hX ?_ (1 / q + 1 / 2 ^ 912) (by positivity) fun f _ => chance_residue _
  · refine (chance_or h (chance_seed k e.1 e.2 hm) ?_).trans (le_of_eq (by ring))
    rintro f ⟨A, sig, sig', d1, d2, d3, hv⟩
    obtain ⟨⟨A', a1, a2⟩, sig₁, s1, s2⟩ := library_answers k f hm
    obtain rfl : A = A' := Except.ok.inj (d1.symm.trans a1)
    obtain rfl : sig = sig₁ := Except.ok.inj (d2.symm.trans s1)
    obtain ⟨_, p2, _, R, S, p4, _, p6, _⟩ := faulty_parts d1 d2 d3
    have hR : sig'.1.take 57 = s' f := by
      rw [p6]
      show garble e.1 R.1 = garble e.1 ((theSignature k f hm).take 57)
      rw [← s2, p2, p4, nonceUsed_id rfl]
    rcases Classical.em (G f) with g | g
    · refine Or.inl ⟨g, ?_⟩
      by_contra hne'
      refine hv (C110_first _ (hashOf f) k A m sig sig' d1 d2 d3 fun heq => hne' ?_)
      have v : ∀ x : Short L, outNat (f x) = leNat (RFC.hash (hashOf f) x.1 114) := fun x => by
        rw [outNat, ← outOf_hashOf f x, ofFn_outOf]
      rw [v, v]
      show leNat (RFC.hash _ (RFC.dom4 ++ (s' f).take 57 ++ a f ++ m) 114) % q = leNat (RFC.hash _ (RFC.dom4 ++ (s f).take 57 ++ a f ++ m) 114) % q
      rw [List.take_of_length_le (hls' f).le, ← hR, show a f = A.1 from a2.symm, show s f = sig.1 from s2.symm]
      exact heq.symm
    · refine Or.inr ?_
      have h1 : RFC.dom4 ++ (s' f).take 57 ++ a f ++ m = RFC.dom4 ++ keySeed (hashOf f) k.1 ++ m := not_not.mp g
      rw [List.append_assoc, List.append_assoc, List.append_assoc, List.append_cancel_left_eq, List.take_of_length_le (hls' f).le] at h1
      exact (List.append_inj h1 (by rw [hls', keySeed_length])).1
  · intro f b g
    show (X _).1 ≠ forNonce _ _ _
    rw [hX f b g, (strings_update k f (X f) b (by rw [show (X f).1.length = _ from hlen' f]; omega) m).1]
    exact g
  · intro f b g
    funext o
    rw [hY' f b g, Function.update_of_ne fun h => hXY f (congrArg Subtype.val h).symm]

/-- The challenge of a signature is hardly ever a multiple of q. -/
theorem chance_challenge (k : Arr Byte 57) {L : ℕ} {m : List Byte} (hm : m.length + 124 ≤ L) :
    chance {f : Short L → Out | outNat (f ⟨_, forChallenge_short k f hm (f ⟨_, forNonce_short k f hm⟩)⟩) % q = 0} ≤ 2 * (1 / q + 1 / 2 ^ 912) := by
  classical
  let Y : (Short L → Out) → Short L := fun f => ⟨_, forChallenge_short k f hm (f ⟨_, forNonce_short k f hm⟩)⟩
  let G : (Short L → Out) → Prop := fun f => (Y f).1 ≠ forNonce k f m
  have hl : ∀ f, (Y f).1.length ≠ 57 := fun f => by
    show (forChallenge k f m _).length ≠ 57
    rw [forChallenge_length]
    omega
  have hn : ∀ f b, forNonce k (Function.update f (Y f) b) m = forNonce k f m := fun f b => (strings_update k f (Y f) b (hl f) m).1
  have hv : ∀ f b, G f → Function.update f (Y f) b ⟨_, forNonce_short k (Function.update f (Y f) b) hm⟩ = f ⟨_, forNonce_short k f hm⟩ := fun f b g => by
    rw [show (⟨_, forNonce_short k (Function.update f (Y f) b) hm⟩ : Short L) = ⟨_, forNonce_short k f hm⟩ from Subtype.ext (hn f b)]
    exact Function.update_of_ne (fun h => g (congrArg Subtype.val h).symm) _ _
  have hY : ∀ f b, G f → Y (Function.update f (Y f) b) = Y f := fun f b g => by
    refine Subtype.ext ?_
    show forChallenge k (Function.update f (Y f) b) m (Function.update f (Y f) b ⟨_, forNonce_short k (Function.update f (Y f) b) hm⟩) = forChallenge k f m _
    rw [hv f b g, (strings_update k f (Y f) b (hl f) m).2]
  have h := chance_resample_on G Y (fun _ o => outNat o % q = 0) (fun f b g => ?_) hY (fun _ _ _ => rfl) (1 / q + 1 / 2 ^ 912) (by positivity) fun f _ => chance_residue _
  · refine (chance_or h (chance_seed k (noError 57) List.length_replicate hm) fun f hf => ?_).trans (le_of_eq (by ring))
    rcases Classical.em (G f) with g | g
    · exact Or.inl ⟨g, hf⟩
    · refine Or.inr ?_
      have h1 : RFC.dom4 ++ encodePoint _ ++ RFC.publicOf _ ++ m = RFC.dom4 ++ keySeed (hashOf f) k.1 ++ m := not_not.mp g
      rw [List.append_assoc, List.append_assoc, List.append_assoc, List.append_cancel_left_eq] at h1
      rw [garble_noError (by rw [List.length_take, theSignature_length]; rfl), theSignature_take]
      exact (List.append_inj h1 (by rw [encodePoint_length, keySeed_length])).1
  · show (Y _).1 ≠ forNonce _ _ _
    rw [hY f b g, hn]
    exact g

/-- C110. A flipped bit of the secret scalar, for a random hash function: the chance that the disturbed signature does not show which bit it was and what its value is is
hardly more than `2 / q`. -/
theorem C110_bit_chance (n : ℕ) (hn : n < 456) (k : Arr Byte 57) (m : List Byte) (L : ℕ) (hm : m.length + 124 ≤ L) :
    chance {f : Short L → Out | ∃ (A : Arr Byte 57) (sig' : Arr Byte 114) (P R : E), ed448_derive_public (hashOf f) k = .ok A ∧
      Faulty.ed448_sign (.flip n) (hashOf f) k m = .ok sig' ∧ RFC.DecodesTo A.1 P ∧ RFC.DecodesTo (sig'.1.take 57) R ∧
      ¬ ∀ i < 456,
        (leNat (sig'.1.drop 57) • B = R + RFC.challenge (hashOf f) (sig'.1.take 57) A.1 m • (P + 2 ^ i • B) ↔ i = n ∧ (keyScalar (hashOf f) k.1).testBit n = false) ∧
        (leNat (sig'.1.drop 57) • B = R + RFC.challenge (hashOf f) (sig'.1.take 57) A.1 m • (P - 2 ^ i • B) ↔ i = n ∧ (keyScalar (hashOf f) k.1).testBit n = true)} ≤
      1 / 2 ^ 443 := by
  refine (chance_imp ?_).trans ((chance_challenge k hm).trans small_line)
  rintro f ⟨A, sig', P, R, d1, d3, hP, hR, hv⟩
  by_contra hc
  refine hv fun i hi => C110_bit n i hn hi (hashOf f) k A m sig' P R d1 d3 hP hR fun h0 => hc ?_
  obtain ⟨⟨A', a1, a2⟩, sig, s1, s2⟩ := library_answers k f hm
  obtain rfl : A = A' := Except.ok.inj (d1.symm.trans a1)
  obtain ⟨_, p2, _, R', S, p4, _, p6, _⟩ := faulty_parts d1 s1 d3
  have e : sig'.1.take 57 = (theSignature k f hm).take 57 := by
    rw [p6]
    show R'.1 = _
    rw [p4, nonceUsed_id rfl, ← p2, s2]
  rw [outNat, ← outOf_hashOf f, ofFn_outOf]
  rw [RFC.challenge, e, theSignature_take, a2] at h0
  exact h0

/-- Errors as in `C110_chance`: one bit. -/
example : (1#8 :: List.replicate 56 0 : List Byte) ≠ noError 57 := by decide

end Ed448
