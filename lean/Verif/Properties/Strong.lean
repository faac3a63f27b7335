import Verif.Properties.AllKeys
import Verif.Properties.Decoding
import Verif.Properties.Vectors

/-!
# C89: other signatures of the same message
-/

namespace Ed448

set_option exponentiation.threshold 1000

/-! ## Statement -/

/-- The forger, who knows the public key, offers a message and a signature that they did not get from the library: they did not ask for a signature of this
message, or they got another one. `Ok xof pk m sig` says that the signature counts. -/
def LibStrong (Ok : Xof → List Byte → List Byte → List Byte → Prop) (F : List Byte → Forger) (xof : Xof) (k : Arr Byte 57) (n : ℕ) : Prop :=
  ∃ pk, ed448_derive_public xof k = .ok pk ∧
    let f := (F pk.1).forge (libSeen (F pk.1) xof k n)
    (∀ i < n, (F pk.1).next (libSeen (F pk.1) xof k i) = .sign f.1 → libReply xof k (.sign f.1) ≠ f.2) ∧ Ok xof pk.1 f.1 f.2

/-- Whoever signs a new message has succeeded in this sense, too. -/
theorem forges_strong {Ok : Xof → List Byte → List Byte → List Byte → Prop} {F : List Byte → Forger} {xof : Xof} {k : Arr Byte 57} {n : ℕ}
    (h : LibForges Ok F xof k n) : LibStrong Ok F xof k n := by
  obtain ⟨pk, h1, h2, h3⟩ := h
  exact ⟨pk, h1, fun i hi e => absurd e (h2 i hi), h3⟩

/-! ## Proofs -/

/-- With the same first half the second half is the same, too. -/
theorem same_signature (xof : Xof) (k pk : Arr Byte 57) (m sig : List Byte) (hk : ed448_derive_public xof k = .ok pk) (h : Loose ρ xof pk.1 m sig)
    (hl : sig.length = 114) (hq : leNat (sig.drop 57) < q) (he : (libReply xof k (.sign m)).take 57 = sig.take 57) : libReply xof k (.sign m) = sig := by
  obtain ⟨pk', sg, k1, k2, ⟨v0, A, R, v1, v2, v3, v4⟩, _⟩ := C57_valid_elsewhere xof k m
  obtain rfl : pk' = pk := by rw [k1] at hk; cases hk; rfl
  have hr : libReply xof k (.sign m) = sg.1 := by rw [libReply, k2]
  rw [hr] at he ⊢
  obtain ⟨_, A', R', w1, w2, w3⟩ := h
  have h5 : (sig.drop 57).take 57 = sig.drop 57 := List.take_of_length_le (by rw [List.length_drop]; omega)
  rw [h5, ← he] at w3
  rw [← he] at w2
  rw [decodesTo_iff] at v1 w1 v2
  have e1 : A' = A := encodePoint_inj.mp (w1.symm.trans v1)
  have e2 : 4 • R' = 4 • R := ρ.same w2 (ρ.point (by rw [v2]; exact decodes_encode _))
  rw [e1, RFC.Equation, e2] at w3
  have h6 := C46_unique_S _ _ _ _ _ v4 w3
  rw [Nat.mod_eq_of_lt v3, Nat.mod_eq_of_lt hq] at h6
  have h7 : sg.1.drop 57 = sig.drop 57 := leNat_inj (by rw [List.length_drop, List.length_drop, v0, hl]) h6
  rw [← List.take_append_drop 57 sg.1, he, h7, List.take_append_drop]

theorem strong_new {Ok : Xof → List Byte → List Byte → List Byte → Prop}
    (hOk : ∀ xof k pk m sig, ed448_derive_public xof k = .ok pk → Ok xof pk.1 m sig → Loose ρ xof pk.1 m sig ∧ sig.length = 114 ∧ leNat (sig.drop 57) < q)
    {F : List Byte → Forger} {n : ℕ} (xof : Xof) (k : Arr Byte 57) (h : LibStrong Ok F xof k n) : LibNew ρ F xof k n := by
  obtain ⟨pk, h1, h2, h3⟩ := h
  obtain ⟨h4, h5, h6⟩ := hOk _ _ _ _ _ h1 h3
  exact ⟨pk, h1, fun i hi e e' => h2 i hi e (same_signature xof k pk _ _ h1 h4 h5 h6 e'), h4⟩

/-- C89. A private key is chosen at random from all strings of 57 bytes, and the hash function at random. If the two procedures of C88 find a random secret with
a chance of at most `w² / (n + 1)` and of at most `v`, then the chance that the forger offers a valid signature that they did not get from the library, be it of a
new message or of one that was signed for them, is at most `2 w + v + 2^(-240)`. -/
theorem C89_strong (F : List Byte → Forger) (L : ℕ) (hF : Bounded F L) (n : ℕ) (hn : n < 2 ^ 100) (w v : ℚ) (hw : 0 ≤ w)
    (hs : (n + 1) * chance {x : (((Fin (n + 1) → Out) × (Fin (n + 1) → Out)) × (Fin n → Fin q)) × (Fin 57 → Byte) |
      let s := RFC.secretScalar (List.ofFn x.2)
      let A := s • B
      extract (F (encodePoint A)) (fun i => blindSigner A (coin x.1.2 i)) (encodePoint A) n (extend x.1.1.1) (extend x.1.1.2) % q = s % q} ≤ w ^ 2)
    (hv : chance {x : ((Fin (n + 1) → Out) × (Fin n → Fin q)) × (Fin 57 → Byte) |
      let s := RFC.secretScalar (List.ofFn x.2)
      let A := s • B
      Finds (F (encodePoint A)) (fun i => blindSigner A (coin x.1.2 i)) (encodePoint A) n (extend x.1.1) s} ≤ v) :
    chance {x : (Fin 57 → Byte) × (Short L → Out) | LibStrong RFC.Valid F (hashOf x.2) (keyOf x.1) n} ≤ 2 * w + v + 1 / 2 ^ 240 :=
  all_numbers (fun xof k => LibStrong RFC.Valid F xof k n) F L hF n hn
    (strong_new fun _ _ _ _ _ _ h => ⟨valid_loose h, h.1, h.2.choose_spec.choose_spec.2.2.1⟩) w v hw hs hv

theorem accepts_canonical (f : Repairs) (hf : f.limb15 = true) (hl : f.sigLength = true) (hr : f.range = true) (xof : Xof) (k pk : Arr Byte 57) (m sig : List Byte)
    (hk : ed448_derive_public xof k = .ok pk) (h : f.ed448_verify xof pk.1 sig m = .ok (.ok true)) :
    Loose plain xof pk.1 m sig ∧ sig.length = 114 ∧ leNat (sig.drop 57) < q := by
  obtain ⟨_, h1, A, R, _, _, h2, _⟩ := (C87_exact f hf xof pk.1 sig m).mp h
  rw [if_pos hl] at h1
  have h5 : (sig.drop 57).take 57 = sig.drop 57 := List.take_of_length_le (by rw [List.length_drop]; omega)
  rw [h5] at h2
  exact ⟨C87_loose f hf xof k pk m sig hk h, h1, h2 hr⟩

/-- C89. The same for signatures that a verifier accepts that compares field elements exactly, checks the length of the signature and checks the range of its
second half, with or without the other repairs. -/
theorem C89_verifiers (f : Repairs) (hf : f.limb15 = true) (hl : f.sigLength = true) (hr : f.range = true) (F : List Byte → Forger) (L : ℕ) (hF : Bounded F L)
    (n : ℕ) (hn : n < 2 ^ 100) (w v : ℚ) (hw : 0 ≤ w)
    (hs : (n + 1) * chance {x : (((Fin (n + 1) → Out) × (Fin (n + 1) → Out)) × (Fin n → Fin q)) × (Fin 57 → Byte) |
      let s := RFC.secretScalar (List.ofFn x.2)
      let A := s • B
      extract (F (encodePoint A)) (fun i => blindSigner A (coin x.1.2 i)) (encodePoint A) n (extend x.1.1.1) (extend x.1.1.2) % q = s % q} ≤ w ^ 2)
    (hv : chance {x : ((Fin (n + 1) → Out) × (Fin n → Fin q)) × (Fin 57 → Byte) |
      let s := RFC.secretScalar (List.ofFn x.2)
      let A := s • B
      Finds (F (encodePoint A)) (fun i => blindSigner A (coin x.1.2 i)) (encodePoint A) n (extend x.1.1) s} ≤ v) :
    chance {x : (Fin 57 → Byte) × (Short L → Out) |
      LibStrong (fun xof pk m sig => f.ed448_verify xof pk sig m = .ok (.ok true)) F (hashOf x.2) (keyOf x.1) n} ≤ 2 * w + v + 1 / 2 ^ 240 :=
  all_numbers (fun xof k => LibStrong (fun xof pk m sig => f.ed448_verify xof pk sig m = .ok (.ok true)) F xof k n) F L hF n hn
    (strong_new fun xof k pk m sig hk h => accepts_canonical f hf hl hr xof k pk m sig hk h) w v hw hs hv

/-! ## Both checks are needed -/

/-- A forger who asks for one signature and changes it. -/
def changer (m : List Byte) (g : List Byte → List Byte) : List Byte → Forger := fun _ => ⟨fun _ => .sign m, fun seen => (m, g (seen.getD 0 []))⟩

/-- The sum of the second half and the group order. -/
def addOrder (sig : List Byte) : List Byte := sig.take 57 ++ leBytes 57 (leNat (sig.drop 57) + q)

theorem changer_strong (Ok : Xof → List Byte → List Byte → List Byte → Prop) (m : List Byte) (g : List Byte → List Byte) (xof : Xof) (k pk : Arr Byte 57) (sig : Arr Byte 114)
    (hk : ed448_derive_public xof k = .ok pk) (hs : ed448_sign xof k m = .ok sig) (hne : sig.1 ≠ g sig.1) (hok : Ok xof pk.1 m (g sig.1)) :
    LibStrong Ok (changer m g) xof k 1 := by
  have h1 : libReply xof k (.sign m) = sig.1 := by rw [libReply, hs]
  have h2 : libSeen (changer m g pk.1) xof k 1 = [sig.1] := by
    rw [libSeen, libSeen]
    exact congrArg (fun x => [x]) h1
  refine ⟨pk, hk, ?_⟩
  rw [h2]
  exact ⟨fun i hi _ => by rw [show ((changer m g pk.1).forge [sig.1]).1 = m from rfl, h1]; exact hne, hok⟩

/-- C89. The existing verifier does not check the length: for every key, hash function and message for which it accepts the signature of the library, it accepts
another one, which everybody can make. -/
theorem C89_existing (xof : Xof) (k pk : Arr Byte 57) (m : List Byte) (sig : Arr Byte 114) (hk : ed448_derive_public xof k = .ok pk)
    (hs : ed448_sign xof k m = .ok sig) (hv : ed448_verify xof pk.1 sig.1 m = .ok (.ok true)) (t : List Byte) (ht : t ≠ []) :
    LibStrong (fun xof pk m sig => ed448_verify xof pk sig m = .ok (.ok true)) (changer m (· ++ t)) xof k 1 := by
  refine changer_strong _ m _ xof k pk sig hk hs (fun e => ht ?_) ?_
  · have := congrArg List.length e
    simp only [List.length_append] at this
    exact List.eq_nil_of_length_eq_zero (by omega)
  · have hz : sig.1 ≠ List.replicate 114 0 := by
      intro e
      rw [C13_zero_rejected xof pk.1 sig.1 m (Or.inr e)] at hv
      cases hv
    show ed448_verify xof pk.1 (sig.1 ++ t) m = _
    rw [C10_trailing xof pk.1 sig.1 t m sig.2 hz]
    exact hv

/-- C89. So do the verifiers with exact comparison that do not check the length, or do not check the range of the second half. -/
theorem C89_needed (f : Repairs) (hf : f.limb15 = true) (xof : Xof) (k pk : Arr Byte 57) (m : List Byte) (sig : Arr Byte 114) (hk : ed448_derive_public xof k = .ok pk)
    (hs : ed448_sign xof k m = .ok sig) (hv : f.ed448_verify xof pk.1 sig.1 m = .ok (.ok true)) :
    (f.sigLength = false → ∀ t ≠ [], LibStrong (fun xof pk m sig => f.ed448_verify xof pk sig m = .ok (.ok true)) (changer m (· ++ t)) xof k 1) ∧
    (f.range = false → LibStrong (fun xof pk m sig => f.ed448_verify xof pk sig m = .ok (.ok true)) (changer m addOrder) xof k 1) := by
  obtain ⟨_, h1, A, R, hA, hR, h2, he⟩ := (C87_exact f hf xof pk.1 sig.1 m).mp hv
  obtain ⟨pk', k1, k2⟩ := derive_spec xof k
  obtain rfl : pk' = pk := by rw [k1] at hk; cases hk; rfl
  obtain ⟨sig', s1, s2⟩ := sign_spec xof k m
  obtain rfl : sig' = sig := by rw [s1] at hs; cases hs; rfl
  obtain ⟨r, S, hS, s3⟩ : ∃ r S, S < q ∧ sig'.1 = encodePoint (r • B) ++ leBytes 57 S := ⟨_, _, Nat.mod_lt _ q_pos, s2⟩
  have hr := encodePoint_length (r • B)
  have hq : 2 * q < 256 ^ 57 := by have := q_lt; omega
  have hp : pk'.1 ≠ List.replicate 57 0 := by rw [k2]; exact encode_smul_B_ne_zero _
  have e1 : sig'.1.take 57 = encodePoint (r • B) := by rw [s3, List.take_left' hr]
  have e2 : sig'.1.drop 57 = leBytes 57 S := by rw [s3, List.drop_left' hr]
  have e3 : (leBytes 57 S).take 57 = leBytes 57 S := List.take_of_length_le (by simp)
  have e4 : leNat (leBytes 57 S) = S := by rw [leNat_leBytes, Nat.mod_eq_of_lt (by omega)]
  rw [e2, e3, e1] at he
  rw [e2, e3] at h2
  rw [e1] at hR
  constructor
  · intro hlen t ht
    refine changer_strong _ m _ xof k pk' sig' hk hs (fun e => ht ?_) ?_
    · have := congrArg List.length e
      simp only [List.length_append] at this
      exact List.eq_nil_of_length_eq_zero (by omega)
    · have e5 : sig'.1 ++ t = encodePoint (r • B) ++ (leBytes 57 S ++ t) := by rw [s3, List.append_assoc]
      refine (C87_exact f hf _ _ _ _).mpr ⟨?_, ?_, A, R, hA, ?_, ?_, ?_⟩
      · rw [e5]
        exact Repairs.nonzero_of_take hp hr (encode_smul_B_ne_zero r)
      · rw [if_neg (by rw [hlen]; exact Bool.false_ne_true), List.length_append, sig'.2]
        omega
      · rw [e5, List.take_left' hr]; exact hR
      · rw [e5, List.drop_left' hr, List.take_left' (by simp)]; exact h2
      · rw [e5, List.drop_left' hr, List.take_left' (by simp), List.take_left' hr]; exact he
  · intro hrange
    have e6 : addOrder sig'.1 = encodePoint (r • B) ++ leBytes 57 (S + q) := by rw [addOrder, e1, e2, e4]
    have e7 : (leBytes 57 (S + q)).take 57 = leBytes 57 (S + q) := List.take_of_length_le (by simp)
    have e8 : leNat (leBytes 57 (S + q)) = S + q := by rw [leNat_leBytes, Nat.mod_eq_of_lt (by omega)]
    refine changer_strong _ m _ xof k pk' sig' hk hs (fun e => ?_) ?_
    · rw [e6, s3] at e
      have := congrArg leNat (List.append_cancel_left e)
      rw [e4, e8] at this
      have := q_pos
      omega
    · rw [e6]
      refine (C87_exact f hf _ _ _ _).mpr ⟨Repairs.nonzero_of_take hp hr (encode_smul_B_ne_zero r), ?_, A, R, hA, ?_, fun h => ?_, ?_⟩
      · rw [List.length_append, hr, leBytes_length]
        split <;> omega
      · rw [List.take_left' hr]; exact hR
      · rw [hrange] at h; cases h
      · rw [List.drop_left' hr, e7, List.take_left' hr, e8]
        rw [e4] at he
        rw [RFC.Equation, add_smul, q_smul_B, add_zero]
        exact he

/-! ## Concrete cases -/

/-- The hypotheses of `C89_strong` are met. With such numbers the bound is above 1 and says nothing; `C95_guess` has a forger for whom the numbers are small. -/
example : chance {x : (Fin 57 → Byte) × (Short 126 → Out) | LibStrong RFC.Valid exampleForger (hashOf x.2) (keyOf x.1) 3} ≤ 2 * 2 + 1 + 1 / 2 ^ 240 := by
  have _ : Nonempty (Fin q) := ⟨⟨0, q_pos⟩⟩
  refine C89_strong exampleForger 126 exampleForger_bounded 3 (by norm_num) 2 1 (by norm_num) ?_ (chance_le_one _)
  refine (mul_le_mul_of_nonneg_left (chance_le_one _) (by positivity)).trans ?_
  norm_num

/-- All repairs but the checks of the length and of the range. -/
def Repairs.noChecks : Repairs := ⟨true, true, true, false, false, true⟩

/-- This verifier accepts all signatures of the library. -/
theorem noChecks_accepts (xof : Xof) (k : Arr Byte 57) (m : List Byte) : ∃ pk sig, ed448_derive_public xof k = .ok pk ∧ ed448_sign xof k m = .ok sig ∧
    Repairs.noChecks.ed448_verify xof pk.1 sig.1 m = .ok (.ok true) := by
  obtain ⟨pk, sig, k1, k2, ⟨v0, A, R, v1, v2, v3, v4⟩, _⟩ := C57_valid_elsewhere xof k m
  have hread : ∀ b A, RFC.DecodesTo b A → Repairs.noChecks.Reads b A := fun b A h =>
    ⟨h.1, h.2.1, h.2.2.1, ⟨h.2.2.2.1, Or.inr h.2.2.2.2⟩, fun _ hx => by rw [← h.2.2.2.2, hx, ZMod.val_zero]⟩
  have h5 : (sig.1.drop 57).take 57 = sig.1.drop 57 := List.take_of_length_le (by rw [List.length_drop]; omega)
  have hz : ¬ ZeroInput pk.1 sig.1 := by
    obtain ⟨pk', a1, a2⟩ := derive_spec xof k
    obtain rfl : pk' = pk := by rw [a1] at k1; cases k1; rfl
    obtain ⟨sig', s1, s2⟩ := sign_spec xof k m
    obtain rfl : sig' = sig := by rw [s1] at k2; cases k2; rfl
    rw [s2, RFC.signWith]
    exact Repairs.nonzero_of_take (by rw [a2]; exact encode_smul_B_ne_zero _) (encodePoint_length _) (encode_smul_B_ne_zero _)
  exact ⟨pk, sig, k1, k2,
    (C87_exact Repairs.noChecks rfl _ _ _ _).mpr ⟨hz, v0.ge, A, R, hread _ _ v1, hread _ _ v2, fun h => absurd h Bool.false_ne_true, by rw [h5]; exact v4⟩⟩

/-- The hypotheses of `C89_needed` are met. -/
example (xof : Xof) (k : Arr Byte 57) (m : List Byte) :
    LibStrong (fun xof pk m sig => Repairs.noChecks.ed448_verify xof pk sig m = .ok (.ok true)) (changer m (· ++ [0])) xof k 1 ∧
    LibStrong (fun xof pk m sig => Repairs.noChecks.ed448_verify xof pk sig m = .ok (.ok true)) (changer m addOrder) xof k 1 := by
  obtain ⟨pk, sig, k1, k2, hv⟩ := noChecks_accepts xof k m
  obtain ⟨h1, h2⟩ := C89_needed Repairs.noChecks rfl xof k pk m sig k1 k2 hv
  exact ⟨h1 rfl [0] (by simp), h2 rfl⟩

/-- The hypotheses of `C89_existing` are met by the key "Blank" of RFC 8032 and SHAKE256. -/
example : LibStrong (fun xof pk m sig => ed448_verify xof pk sig m = .ok (.ok true)) (changer [] (· ++ [0])) Shake.shake256
    (Vectors.key 0x6c82a562cb808d10d632be89c8513ebf6c929f34ddfa8c9f63c9960ef6e348a3528c8a3fcc2f044e39a3fc5b94492f8f032e7549a20098f95b) 1 :=
  C89_existing Shake.shake256 _ _ [] _ Vectors.rfc_blank_public Vectors.rfc_blank_signature Vectors.rfc_blank_verifies [0] (by simp)

end Ed448
