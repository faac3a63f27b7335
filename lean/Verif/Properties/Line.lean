import Verif.Properties.Hidden
import Verif.Properties.Strong
import Verif.Spec.Line

/-!
# C107: errors on the line are noticed
-/

namespace Ed448

set_option exponentiation.threshold 1000

/-! ## Errors -/

theorem garble_length {e l : List Byte} (h : e.length = l.length) : (garble e l).length = l.length := by
  rw [garble, List.length_zipWith, h, min_self]

theorem garble_garble {e l : List Byte} (h : e.length = l.length) : garble e (garble e l) = l := by
  refine List.ext_getElem ?_ fun i h1 h2 => ?_
  · rw [garble_length (by rw [garble_length h, h]), garble_length h]
  · simp only [garble, List.getElem_zipWith]
    rw [← BitVec.xor_assoc, BitVec.xor_self, BitVec.zero_xor]

theorem garble_inj {e a b : List Byte} (ha : e.length = a.length) (hb : e.length = b.length) (h : garble e a = garble e b) : a = b := by
  rw [← garble_garble ha, h, garble_garble hb]

theorem garble_self {e l : List Byte} (h : e.length = l.length) (he : garble e l = l) : e = noError e.length := by
  refine List.ext_getElem (by rw [noError, List.length_replicate]) fun i h1 h2 => ?_
  have h3 : (garble e l)[i]'(by rw [garble_length h]; omega) = l[i] := by simp only [he]
  simp only [garble, List.getElem_zipWith] at h3
  simp only [noError, List.getElem_replicate]
  have h4 := congrArg (· ^^^ l[i]) h3
  simp only [BitVec.xor_assoc, BitVec.xor_self, BitVec.xor_zero] at h4
  exact h4

theorem garble_noError {n : ℕ} {l : List Byte} (h : l.length = n) : garble (noError n) l = l := by
  subst h
  refine List.ext_getElem ?_ fun i h1 h2 => ?_
  · exact garble_length List.length_replicate
  · simp only [garble, noError, List.getElem_zipWith, List.getElem_replicate]
    exact BitVec.zero_xor

theorem garble_take (e l : List Byte) (n : ℕ) : (garble e l).take n = garble (e.take n) (l.take n) := List.take_zipWith

/-! ## Errors that change the string that is hashed -/

section

variable {L : ℕ} (k : Arr Byte 57)

/-- The first half of the signature, with errors, is hardly ever the seed of the nonce. -/
theorem chance_seed (e : List Byte) (he : e.length = 57) {m : List Byte} (hm : m.length + 124 ≤ L) :
    chance {f : Short L → Out | garble e ((theSignature k f hm).take 57) = keySeed (hashOf f) k.1} ≤ 1 / q + 1 / 2 ^ 912 := by
  classical
  have hX : ∀ (f : Short L → Out) b, forNonce k (Function.update f ⟨_, forNonce_short k f hm⟩ b) m = forNonce k f m := fun f b =>
    (strings_update k f _ b (by rw [forNonce_length]; omega) m).1
  have h := chance_resample (fun f : Short L → Out => ⟨forNonce k f m, forNonce_short k f hm⟩)
    (fun f o => garble e (encodePoint (outNat o • B)) = keySeed (hashOf f) k.1) (fun f b => Subtype.ext (hX f b)) (fun f b => ?_) (1 / q + 1 / 2 ^ 912) fun f => ?_
  · refine le_trans (le_of_eq (chance_congr fun f => ?_)) h
    rw [theSignature_take]
  · funext o
    rw [(key_update k f _ b (by rw [forNonce_length]; omega)).2]
  · rcases Classical.em (∃ o, garble e (encodePoint (outNat o • B)) = keySeed (hashOf f) k.1) with ⟨o₀, h0⟩ | h0
    · refine (chance_imp fun o ho => ?_).trans (chance_residue (outNat o₀ % q))
      rw [← h0] at ho
      have := garble_inj (by rw [he, encodePoint_length]) (by rw [he, encodePoint_length]) ho
      rwa [encodePoint_inj, smul_B_inj] at this
    · refine le_trans (le_of_eq ?_) (by positivity : (0 : ℚ) ≤ 1 / q + 1 / 2 ^ 912)
      exact chance_none fun o ho => h0 ⟨o, ho⟩

theorem thePublic_length (f : Short L → Out) : (thePublic k f).length = 57 := by rw [thePublic, RFC.publicOf, encodePoint_length]

theorem theSignature_length (f : Short L → Out) {m : List Byte} (hm : m.length + 124 ≤ L) : (theSignature k f hm).length = 114 := by
  obtain ⟨_, sig, _, h⟩ := library_answers k f hm
  rw [← h, sig.2]

end

/-- C107. A public key, a message and a signature that the library made arrive with errors in the key, the message or the first half of the signature, and perhaps in
the second half. For every private key, every message and every choice of errors, the chance over a random hash function that the equation holds all the same, in
the weaker form of C86, is hardly more than `2 / q`. -/
theorem C107_line (ρ : Reading) (k : Arr Byte 57) (m m' eA eS : List Byte) (L : ℕ) (hm : m.length + 124 ≤ L) (hm' : m'.length + 124 ≤ L) (hA : eA.length = 57)
    (hS : eS.length = 114) (hne : (eA, m', eS.take 57) ≠ (noError 57, m, noError 57)) :
    chance {f : Short L → Out | Unnoticed (Loose ρ) k m m' eA eS (hashOf f)} ≤ 2 * (1 / q + 1 / 2 ^ 912) := by
  classical
  have hd : RFC.dom4.length = 10 := by decide
  let a : (Short L → Out) → List Byte := fun f => garble eA (thePublic k f)
  let s : (Short L → Out) → List Byte := fun f => garble eS (theSignature k f hm)
  have hla : ∀ f, (a f).length = 57 := fun f => (garble_length (by rw [hA, thePublic_length])).trans (thePublic_length k f)
  have hls : ∀ f, (s f).length = 114 := fun f => (garble_length (by rw [hS, theSignature_length])).trans (theSignature_length k f hm)
  have hlen : ∀ f, (challengeString (a f) m' (s f)).length = 124 + m'.length := fun f => by
    rw [challengeString, List.length_append, List.length_append, List.length_append, hd, hla, List.length_take, hls]
    omega
  let X : (Short L → Out) → Short L := fun f => ⟨challengeString (a f) m' (s f), by show _ ≤ L; rw [hlen]; omega⟩
  let G : (Short L → Out) → Prop := fun f => (X f).1 ≠ forNonce k f m
  have hc : ∀ f, (X f).1 ≠ forChallenge k f m (f ⟨_, forNonce_short k f hm⟩) := fun f e => by
    have e' : RFC.dom4 ++ (s f).take 57 ++ a f ++ m' = RFC.dom4 ++ encodePoint (outNat (f ⟨_, forNonce_short k f hm⟩) • B) ++ thePublic k f ++ m := e
    rw [← theSignature_take, List.append_assoc, List.append_assoc, List.append_assoc, List.append_assoc, List.append_cancel_left_eq] at e'
    obtain ⟨i1, i2⟩ := List.append_inj e' (by rw [List.length_take, List.length_take, hls, theSignature_length])
    obtain ⟨i3, i4⟩ := List.append_inj i2 (by rw [hla, thePublic_length])
    refine hne ?_
    have j1 := garble_self (e := eA) (by rw [hA, thePublic_length]) i3
    have j2 : eS.take 57 = _ := garble_self (l := (theSignature k f hm).take 57) (by rw [List.length_take, List.length_take, hS, theSignature_length])
      (by rw [← garble_take]; exact i1)
    rw [hA] at j1
    rw [List.length_take, hS] at j2
    rw [i4, j2, j1]
    rfl
  have key : ∀ f b, G f → a (Function.update f (X f) b) = a f ∧ s (Function.update f (X f) b) = s f := fun f b g => by
    obtain ⟨h1, h2⟩ := answers_update k f hm (X f) b (by rw [show (X f).1.length = _ from hlen f]; omega) g (hc f)
    show garble _ _ = garble _ _ ∧ garble _ _ = garble _ _
    rw [h1, h2]
    exact ⟨rfl, rfl⟩
  have hX : ∀ f b, G f → X (Function.update f (X f) b) = X f := fun f b g => by
    obtain ⟨h1, h2⟩ := key f b g
    refine Subtype.ext ?_
    show challengeString _ m' _ = challengeString _ m' _
    rw [h1, h2]
  have h := chance_resample_on G X (fun f o => ValidWith ρ (a f) (s f) o ∧ ¬ SmallOrder (a f)) ?_ hX ?_ (1 / q + 1 / 2 ^ 912) (by positivity) ?_
  · refine (chance_or h (chance_seed k (eS.take 57) (by rw [List.length_take, hS]; rfl) hm) ?_).trans (le_of_eq (by ring))
    rintro f ⟨pk, sig, d1, d2, hs, hv⟩
    obtain ⟨⟨A', a1, a2⟩, sig', s1, s2⟩ := library_answers k f hm
    have e1 : pk = A' := Except.ok.inj (d1.symm.trans a1)
    have e2 : sig = sig' := Except.ok.inj (d2.symm.trans s1)
    rw [e1, a2] at hs hv
    rw [e2, s2] at hv
    rcases Classical.em (G f) with g | g
    · refine Or.inl ⟨g, ?_, hs⟩
      have hv' := (validWith_iff (ρ := ρ) (hashOf f) (a f) m' (s f)).mpr hv
      rwa [show challengeString (a f) m' (s f) = (X f).1 from rfl, outOf_hashOf] at hv'
    · refine Or.inr ?_
      have e : RFC.dom4 ++ (s f).take 57 ++ a f ++ m' = RFC.dom4 ++ keySeed (hashOf f) k.1 ++ m := not_not.mp g
      rw [List.append_assoc, List.append_assoc, List.append_assoc, List.append_cancel_left_eq] at e
      have i1 := (List.append_inj e (by rw [List.length_take, hls, keySeed_length]; rfl)).1
      rw [← garble_take]
      exact i1
  · intro f b g
    show (X _).1 ≠ forNonce _ _ _
    rw [hX f b g, (strings_update k f (X f) b (by rw [show (X f).1.length = _ from hlen f]; omega) m).1]
    exact g
  · intro f b g
    obtain ⟨h1, h2⟩ := key f b g
    simp only [h1, h2]
  · intro f _
    rcases Classical.em (SmallOrder (a f)) with hs | hs
    · refine le_trans (le_of_eq ?_) (by positivity : (0 : ℚ) ≤ 1 / q + 1 / 2 ^ 912)
      exact chance_none fun o ho => ho.2 hs
    · exact (chance_imp fun o ho => ho.1).trans (chance_validWith ρ _ _ hs)

theorem small_line : (2 : ℚ) * (1 / q + 1 / 2 ^ 912) ≤ 1 / 2 ^ 443 := by
  have h2 : (1 : ℚ) / q ≤ 1 / 2 ^ 445 := one_div_le_one_div_of_le (by positivity) q_bounds.1
  calc (2 : ℚ) * (1 / q + 1 / 2 ^ 912) ≤ 2 * (1 / 2 ^ 445 + 1 / 2 ^ 912) := by linarith
    _ ≤ 1 / 2 ^ 443 := by norm_num

/-- What the library makes is valid. -/
theorem made_valid {xof : Xof} {k pk : Arr Byte 57} {m : List Byte} {sig : Arr Byte 114} (h1 : ed448_derive_public xof k = .ok pk) (h2 : ed448_sign xof k m = .ok sig) :
    RFC.Valid xof pk.1 m sig.1 := by
  obtain ⟨p1, p2, p3, p4⟩ := sign_parts h1 h2
  exact ⟨sig.2, _, _, decodesTo_iff.mpr p1, decodesTo_iff.mpr p2, p3, by rw [RFC.Equation, p4, smul_add]⟩

/-- C107, for validity as in RFC 8032: any errors at all, also in the second half only. -/
theorem C107_valid (k : Arr Byte 57) (m m' eA eS : List Byte) (L : ℕ) (hm : m.length + 124 ≤ L) (hm' : m'.length + 124 ≤ L) (hA : eA.length = 57)
    (hS : eS.length = 114) (hne : (eA, m', eS) ≠ (noError 57, m, noError 114)) :
    chance {f : Short L → Out | Unnoticed RFC.Valid k m m' eA eS (hashOf f)} ≤ 1 / 2 ^ 443 := by
  rcases Classical.em ((eA, m', eS.take 57) = (noError 57, m, noError 57)) with h | h
  · refine le_trans (le_of_eq ?_) (by positivity : (0 : ℚ) ≤ 1 / 2 ^ 443)
    refine chance_none fun f hf => ?_
    obtain ⟨pk, sig, d1, d2, hs, hv⟩ := hf
    obtain ⟨rfl, h'⟩ := Prod.mk.inj h
    obtain ⟨rfl, h3⟩ := Prod.mk.inj h'
    rw [garble_noError pk.2] at hv
    have h4 := valid_half hv (made_valid d1 d2) (by rw [garble_take, h3, garble_noError (by rw [List.length_take, sig.2]; rfl)])
    refine hne ?_
    rw [garble_self (by rw [hS, sig.2]) h4, hS]
  · exact ((chance_imp fun f ⟨pk, sig, h1, h2, h3, h4⟩ => ⟨pk, sig, h1, h2, h3, valid_loose h4⟩).trans (C107_line plain k m m' eA eS L hm hm' hA hS h)).trans small_line

/-- C107, for the public key without errors and a verifier that contains the first repair, the exact comparison: errors in the message or in the first half. -/
theorem C107_one_repair (r : Repairs) (hr : r.limb15 = true) (k : Arr Byte 57) (m m' eS : List Byte) (L : ℕ) (hm : m.length + 124 ≤ L) (hm' : m'.length + 124 ≤ L)
    (hS : eS.length = 114) (hne : (m', eS.take 57) ≠ (m, noError 57)) :
    chance {f : Short L → Out | Unnoticed (fun xof pk m sig => r.ed448_verify xof pk sig m = .ok (.ok true)) k m m' (noError 57) eS (hashOf f)} ≤ 1 / 2 ^ 443 := by
  refine (chance_imp ?_).trans ((C107_line plain k m m' (noError 57) eS L hm hm' List.length_replicate hS fun e => hne (Prod.mk.inj e).2).trans small_line)
  rintro f ⟨pk, sig, h1, h2, h3, h4⟩
  refine ⟨pk, sig, h1, h2, h3, ?_⟩
  rw [garble_noError pk.2] at h4 ⊢
  exact C87_loose r hr _ k pk m' _ h1 h4

/-- C107, for the public key without errors and the verifier as it is: what is added is the chance of a near miss (C96). -/
theorem C107_as_is (k : Arr Byte 57) (m m' eS : List Byte) (L : ℕ) (hm : m.length + 124 ≤ L) (hm' : m'.length + 124 ≤ L) (hS : eS.length = 114)
    (hne : (m', eS.take 57) ≠ (m, noError 57)) (u : ℚ) (hu : chance {f : Short L → Out | Unnoticed NearMiss k m m' (noError 57) eS (hashOf f)} ≤ u) :
    chance {f : Short L → Out | Unnoticed (fun xof pk m sig => ed448_verify xof pk sig m = .ok (.ok true)) k m m' (noError 57) eS (hashOf f)} ≤ 1 / 2 ^ 443 + u := by
  refine chance_or ((C107_line asRead k m m' (noError 57) eS L hm hm' List.length_replicate hS fun e => hne (Prod.mk.inj e).2).trans small_line) hu ?_
  rintro f ⟨pk, sig, h1, h2, h3, h4⟩
  rcases Classical.em (Loose asRead (hashOf f) (garble (noError 57) pk.1) m' (garble eS sig.1)) with h | h
  · exact Or.inl ⟨pk, sig, h1, h2, h3, h⟩
  · refine Or.inr ⟨pk, sig, h1, h2, h3, ?_⟩
    rw [garble_noError pk.2] at h h4 ⊢
    exact (C96_accepted _ k pk m' _ h1 h4).1.mpr h

/-! ## Errors in the second half only -/

theorem burst_mod {S S' : ℕ} (h : Burst 445 S S') (hq : S % q = S' % q) : S = S' := by
  obtain ⟨i, h⟩ := h
  have hlow : S % 2 ^ i = S' % 2 ^ i := Nat.eq_of_testBit_eq fun j => by
    rw [Nat.testBit_mod_two_pow, Nat.testBit_mod_two_pow]
    by_cases hj : j < i
    · rw [h j (Or.inl hj)]
    · simp [hj]
  have hhigh : S / 2 ^ i / 2 ^ 445 = S' / 2 ^ i / 2 ^ 445 := Nat.eq_of_testBit_eq fun j => by
    rw [Nat.div_div_eq_div_mul, Nat.div_div_eq_div_mul, ← pow_add, Nat.testBit_div_two_pow, Nat.testBit_div_two_pow, h _ (Or.inr (by omega))]
  have e1 := Nat.mod_add_div S (2 ^ i)
  have e2 := Nat.mod_add_div S' (2 ^ i)
  have e3 := Nat.mod_add_div (S / 2 ^ i) (2 ^ 445)
  have e4 := Nat.mod_add_div (S' / 2 ^ i) (2 ^ 445)
  have hq' : S ≡ S' [MOD q] := hq
  have hc : q.gcd (2 ^ i) = 1 := Nat.Coprime.pow_right i ((Nat.Prime.coprime_iff_not_dvd q_prime).mpr fun hd => by
    have := Nat.le_of_dvd (by norm_num) hd
    have h1 : 2 < q := by rw [q_def]; decide +kernel
    omega)
  rw [← e1, ← e2, hlow] at hq'
  have h1 := Nat.ModEq.cancel_left_of_coprime hc (Nat.ModEq.add_left_cancel' _ hq')
  rw [← e3, ← e4, hhigh] at h1
  have h2 := Nat.ModEq.add_right_cancel' _ h1
  have hb : 2 ^ 445 ≤ q := by rw [q_def]; decide +kernel
  have h3 := Nat.ModEq.eq_of_lt_of_lt h2 ((Nat.mod_lt _ (by positivity)).trans_le hb) ((Nat.mod_lt _ (by positivity)).trans_le hb)
  rw [← e1, ← e2, ← e3, ← e4, h3, hlow, hhigh]

/-- Two second halves for one first half. -/
theorem loose_half {ρ : Reading} {xof : Xof} {pk m r s s' : List Byte} (hr : r.length = 57) (hs : s.length = 57) (hs' : s'.length = 57)
    (h : Loose ρ xof pk m (r ++ s)) (h' : Loose ρ xof pk m (r ++ s')) : leNat s % q = leNat s' % q := by
  obtain ⟨_, A, R, a1, a2, a3⟩ := h
  obtain ⟨_, A', R', b1, b2, b3⟩ := h'
  rw [List.take_left' hr] at a2 a3 b2 b3
  rw [List.drop_left' hr, List.take_of_length_le hs.le] at a3
  rw [List.drop_left' hr, List.take_of_length_le hs'.le] at b3
  rw [decodesTo_iff.mp a1, decodesTo_iff, encodePoint_inj] at b1
  rw [← b1, RFC.Equation, ← ρ.same a2 b2] at b3
  exact C46_unique_S _ _ _ _ _ a3 b3

/-- C107. For a verifier that contains the first repair and a public key that the library derived: if the errors are all in the second half of the signature, and among 445 bits in
a row, they are noticed, for every hash function. -/
theorem C107_burst (f : Repairs) (hf : f.limb15 = true) (xof : Xof) (k pk : Arr Byte 57) (m r s s' : List Byte) (hk : ed448_derive_public xof k = .ok pk)
    (hr : r.length = 57) (hs : s.length = 57) (hs' : s'.length = 57) (hne : s ≠ s') (hb : Burst 445 (leNat s) (leNat s'))
    (h : f.ed448_verify xof pk.1 (r ++ s) m = .ok (.ok true)) : f.ed448_verify xof pk.1 (r ++ s') m ≠ .ok (.ok true) := fun h' =>
  hne (leNat_inj (hs.trans hs'.symm) (burst_mod hb (loose_half hr hs hs' (C87_loose f hf xof k pk m _ hk h) (C87_loose f hf xof k pk m _ hk h'))))

/-- C107, for the verifier as it is: the errors are noticed, or one of the two signatures is a near miss. -/
theorem C107_burst_as_is (xof : Xof) (k pk : Arr Byte 57) (m r s s' : List Byte) (hk : ed448_derive_public xof k = .ok pk)
    (hr : r.length = 57) (hs : s.length = 57) (hs' : s'.length = 57) (hne : s ≠ s') (hb : Burst 445 (leNat s) (leNat s'))
    (h : ed448_verify xof pk.1 (r ++ s) m = .ok (.ok true)) (h' : ed448_verify xof pk.1 (r ++ s') m = .ok (.ok true)) :
    NearMiss xof pk.1 m (r ++ s) ∨ NearMiss xof pk.1 m (r ++ s') := by
  by_contra hn
  obtain ⟨n1, n2⟩ := not_or.mp hn
  have l1 := not_not.mp fun e => n1 ((C96_accepted xof k pk m _ hk h).1.mpr e)
  have l2 := not_not.mp fun e => n2 ((C96_accepted xof k pk m _ hk h').1.mpr e)
  exact hne (leNat_inj (hs.trans hs'.symm) (burst_mod hb (loose_half hr hs hs' l1 l2)))

/-- C107. Hardly more bits in a row are too many: the verifier as it is does not notice when the group order is added. This changes no other bits than the first `w`, if the
sum has not more; `w` is 447 for signatures of the library and may be 446. -/
theorem C107_limit (xof : Xof) (pk m r s : List Byte) (w : ℕ) (hw : w ≤ 456) (hr : r.length = 57) (hs : s.length = 57) (hz : r ≠ noError 57)
    (hq : leNat s + q < 2 ^ w) :
    let s' := leBytes 57 (leNat s + q)
    s ≠ s' ∧ Burst w (leNat s) (leNat s') ∧ ed448_verify xof pk (r ++ s) m = ed448_verify xof pk (r ++ s') m := by
  intro s'
  have hs' : s'.length = 57 := leBytes_length _ _
  have hv : leNat s' = leNat s + q := by
    rw [leNat_leBytes, Nat.mod_eq_of_lt]
    exact hq.trans_le ((Nat.pow_le_pow_right (by norm_num) hw).trans (by norm_num))
  have hnz : ∀ t, r ++ t ≠ List.replicate 114 0 := fun t e => hz (by
    have := congrArg (List.take 57) e
    rwa [List.take_left' hr, List.take_replicate] at this)
  refine ⟨fun e => ?_, ⟨0, fun j hj => ?_⟩, C11_S_mod_q xof pk r s s' m hr hs hs' ?_ (hnz _) (hnz _)⟩
  · have := q_pos
    rw [← e] at hv
    omega
  · have hj' : 2 ^ w ≤ 2 ^ j := Nat.pow_le_pow_right (by norm_num) (by omega)
    rw [hv, Nat.testBit_lt_two_pow (by omega), Nat.testBit_lt_two_pow (by omega)]
  · rw [hv, Nat.add_mod_right]

/-- C107, for one bit: if one bit of the second half of a signature that the library made is changed, it is not accepted any more by any verifier that contains the first repair, for any
key, message and hash function. -/
theorem C107_one_bit (f : Repairs) (hf : f.limb15 = true) (xof : Xof) (k pk : Arr Byte 57) (m : List Byte) (sig : Arr Byte 114) (hk : ed448_derive_public xof k = .ok pk)
    (hs : ed448_sign xof k m = .ok sig) (j : ℕ) (s' : List Byte) (hs' : s'.length = 57) (hj : leNat s' = leNat (sig.1.drop 57) ^^^ 2 ^ j) :
    f.ed448_verify xof pk.1 (sig.1.take 57 ++ s') m ≠ .ok (.ok true) := fun h' => by
  have hr : (sig.1.take 57).length = 57 := by rw [List.length_take, sig.2]; rfl
  have hd : (sig.1.drop 57).length = 57 := by rw [List.length_drop, sig.2]
  have h := valid_loose (made_valid hk hs)
  rw [← List.take_append_drop 57 sig.1] at h
  have hb : Burst 445 (leNat (sig.1.drop 57)) (leNat s') := ⟨j, fun i hi => by
    rw [hj, Nat.testBit_xor, Nat.testBit_two_pow_of_ne (by omega), Bool.xor_false]⟩
  have e := burst_mod hb (loose_half hr hd hs' h (C87_loose f hf xof k pk m _ hk h'))
  rw [hj] at e
  have e' := congrArg (fun n => n.testBit j) e
  simp only [Nat.testBit_xor, Nat.testBit_two_pow_self] at e'
  cases h0 : (leNat (sig.1.drop 57)).testBit j <;> simp [h0] at e'

/-! ## Cases -/

/-- One bit of the message is changed, and five bits of the first half of the signature. -/
example (k : Arr Byte 57) : chance {f : Short 126 → Out | Unnoticed RFC.Valid k [0, 1] [0, 3] (noError 57) (31 :: noError 113) (hashOf f)} ≤ 1 / 2 ^ 443 :=
  C107_valid k _ _ _ _ 126 (by decide) (by decide) (by decide) (by decide) (by decide)

/-- One bit of the key is changed. -/
example (ρ : Reading) (k : Arr Byte 57) : chance {f : Short 126 → Out | Unnoticed (Loose ρ) k [0, 1] [0, 1] (4 :: noError 56) (noError 114) (hashOf f)} ≤ 2 * (1 / q + 1 / 2 ^ 912) :=
  C107_line ρ k _ _ _ _ 126 (by decide) (by decide) (by decide) (by decide) (by decide)

/-- Without errors the signature counts, for every hash function, if the key is not of small order. -/
example (xof : Xof) (k pk : Arr Byte 57) (m : List Byte) (hk : ed448_derive_public xof k = .ok pk) (hs : ¬ SmallOrder pk.1) :
    Unnoticed RFC.Valid k m m (noError 57) (noError 114) xof := by
  obtain ⟨sig, s1, _⟩ := sign_spec xof k m
  refine ⟨pk, sig, hk, s1, ?_⟩
  rw [garble_noError pk.2, garble_noError sig.2]
  exact ⟨hs, made_valid hk s1⟩

/-- The hypotheses of `C107_one_repair` are met by a message of another length. -/
example (k : Arr Byte 57) : chance {f : Short 200 → Out | Unnoticed (fun xof pk m sig => Repairs.first.ed448_verify xof pk sig m = .ok (.ok true)) k [7] [] (noError 57)
    (noError 114) (hashOf f)} ≤ 1 / 2 ^ 443 :=
  C107_one_repair Repairs.first rfl k _ _ _ 200 (by decide) (by decide) (by decide) (by decide)

/-- The hypotheses of `C107_burst` are met: the verifier accepts the signature as it was made. -/
example (xof : Xof) (k : Arr Byte 57) (m : List Byte) : ∃ pk r s, ed448_derive_public xof k = .ok pk ∧ r.length = 57 ∧ s.length = 57 ∧
    Repairs.noChecks.ed448_verify xof pk.1 (r ++ s) m = .ok (.ok true) ∧
    ∀ s', s'.length = 57 → s ≠ s' → Burst 445 (leNat s) (leNat s') → Repairs.noChecks.ed448_verify xof pk.1 (r ++ s') m ≠ .ok (.ok true) := by
  obtain ⟨pk, sig, k1, k2, hv⟩ := noChecks_accepts xof k m
  rw [← List.take_append_drop 57 sig.1] at hv
  have hr : (sig.1.take 57).length = 57 := by rw [List.length_take, sig.2]; rfl
  have hd : (sig.1.drop 57).length = 57 := by rw [List.length_drop, sig.2]
  exact ⟨pk, _, _, k1, hr, hd, hv, fun s' h1 h2 h3 => C107_burst Repairs.noChecks rfl xof k pk m _ _ s' k1 hr hd h1 h2 h3 hv⟩

/-- 445 bits in a row, and not in a row of 444. -/
example : Burst 445 (2 ^ 10 + 2 ^ 454) 0 ∧ ¬ Burst 444 (2 ^ 10 + 2 ^ 454) 0 := by
  refine ⟨⟨10, fun j hj => ?_⟩, ?_⟩
  · rw [Nat.zero_testBit]
    rcases hj with hj | hj
    · rw [Nat.testBit_two_pow_add_gt (by omega), Nat.testBit_two_pow_of_ne (by omega)]
    · exact Nat.testBit_lt_two_pow (lt_of_lt_of_le (by norm_num : 2 ^ 10 + 2 ^ 454 < 2 ^ 455) (Nat.pow_le_pow_right (by norm_num) hj))
  · rintro ⟨i, hi⟩
    rcases Nat.lt_or_ge 10 i with h | h
    · exact absurd (hi 10 (Or.inl h)) (by decide +kernel)
    · exact absurd (hi 454 (Or.inr (by omega))) (by decide +kernel)

end Ed448
