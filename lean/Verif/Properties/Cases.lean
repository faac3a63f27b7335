import Verif.Properties.Checked
import Verif.Properties.Distinct
import Verif.Properties.Forgery
import Verif.Properties.Hash
import Verif.Properties.Leak
import Verif.Properties.Limits
import Verif.Properties.ManyUsers
import Verif.Properties.Substitution
import Verif.Properties.Threads
import Verif.Properties.Vectors

/-!
# Concrete cases for theorems that have hypotheses and are not applied elsewhere
-/

namespace Ed448

set_option exponentiation.threshold 1000

/-- `C28_binding`: two challenge strings for different messages are different. -/
example : RFC.dom4 ++ encodePoint B ++ encodePoint (2 • B) ++ [1] ≠ RFC.dom4 ++ encodePoint B ++ encodePoint (2 • B) ++ [1, 2] := fun h => by
  have := (C28_binding _ _ _ _ _ _ (encodePoint_length _) (encodePoint_length _) (encodePoint_length _) (encodePoint_length _) h).2.2
  simp at this

/-- `C51_sign` for the private key of a test vector. -/
example (xof : Xof) (m : List Byte) : ∃ A sig, Chk.ed448_derive_public xof Witness.rfcKey.1 = .ok A ∧ Chk.ed448_sign xof Witness.rfcKey.1 m = .ok sig ∧
    sig = RFC.sign xof Witness.rfcKey.1 m := by
  obtain ⟨A, sig, h1, h2, h3, _⟩ := C51_sign xof Witness.rfcKey.1 m Witness.rfcKey.2
  exact ⟨A, sig, h1, h2, (h3 Witness.rfcKey_sign).2⟩

/-- `C64_control_flow` for two keys that are different. -/
example (xof : Xof) : (Leak.ed448_sign xof (List.replicate 57 1) [1, 2]).events.map Event.hide =
    (Leak.ed448_sign xof (List.replicate 57 2) [3, 4]).events.map Event.hide :=
  (C64_control_flow xof xof ⟨List.replicate 57 1, by simp⟩ ⟨List.replicate 57 2, by simp⟩ [1, 2] [3, 4] (by decide) rfl).2

/-- `C85_same_challenge` for two keys that are different and accept the same signature. -/
example (m m' : List Byte) : encodePoint B ≠ encodePoint (B + T2) ∧ RFC.Valid Witness.oneXof (encodePoint B) m (encodePoint B ++ leBytes 57 2) ∧
    RFC.Valid Witness.oneXof (encodePoint (B + T2)) m' (encodePoint B ++ leBytes 57 2) ∧ (q + 1) • B = (q + 1) • (B + T2) := by
  have hT : 4 • T2 = 0 := by rw [Edw.four_eq, T2_double, add_zero]
  have e : ∀ s, leNat (RFC.hash Witness.oneXof s 114) = 1 := fun s => by
    rw [show RFC.hash Witness.oneXof s 114 = RFC.hash Witness.oneXof [] 114 from rfl]
    decide +kernel
  have v := Witness.sig_valid m B rfl
  have v' := Witness.sig_valid m' (B + T2) (by rw [smul_add, hT, add_zero])
  refine ⟨fun h => T2_ne_zero ?_, v, v', (C85_same_challenge Witness.oneXof _ _ m m' _ B (B + T2) (decodesTo_iff.mpr rfl) (decodesTo_iff.mpr rfl)
    v v' ?_ ?_).2⟩
  · exact left_eq_add.mp (encodePoint_inj.mp h)
  · rw [RFC.challenge, RFC.challenge, e, e]
  · rw [RFC.challenge, e, ← qN_eq]
    decide +kernel

/-- `C85_luck` for the base point as the key. -/
example (xof : Xof) (m sig : List Byte) :
    Set.ncard {h | RFC.Valid (reprogram xof (RFC.dom4 ++ sig.take 57 ++ encodePoint B ++ m) h) (encodePoint B) m sig} ≤ 2 ^ 912 / q + 1 := by
  refine C85_luck xof _ m sig B (decodesTo_iff.mpr rfl) ?_
  have := four_smul_B_ne (n := 1) (by rw [one_smul]; exact B_ne_zero)
  rwa [one_smul] at this

/-- `C84_no_random`: a thread that parses a key and signs gets the same, whether or not another thread makes keys in between. -/
example (xof : Xof) (stream : ℕ → Byte) (b m : List Byte) :
    let rng : Rng ℕ := ⟨fun n pos => (⟨(List.range n).map (fun i => stream (pos + i)), by simp⟩, pos + n)⟩
    let s : List (Bool × Call) := [(true, .signingFromSlice b), (true, .signPrehash 0 m)]
    let s' : List (Bool × Call) := [(false, .signingRandom), (true, .signingFromSlice b), (false, .signingRandom), (true, .signPrehash 0 m)]
    (((Threads.start 0 : Threads Bool ℕ).run xof rng (s.map fun e => .call e.1 e.2)).held true).signatures =
      (((Threads.start 0 : Threads Bool ℕ).run xof rng (s'.map fun e => .call e.1 e.2)).held true).signatures := by
  intro rng s s'
  refine (C84_no_random xof stream rng (fun _ _ => ⟨rfl, rfl⟩) s s' true rfl ?_).2.2.2
  intro c hc
  have e : ownCalls true s = [.signingFromSlice b, .signPrehash 0 m] := rfl
  rw [e] at hc
  rcases List.mem_cons.mp hc with rfl | hc
  · rfl
  · rw [List.mem_singleton.mp hc]
    rfl

/-- `C90_prehash` for two messages. -/
example : chance {x : (Fin 57 → Byte) × (Short 200 → Out) | ¬ ∀ m ∈ [[1], [2, 3]], ∃ k sig, SigningKey.from_slice (hashOf x.2) (List.ofFn x.1) = .ok k ∧
      k.sign_prehash (hashOf x.2) m = .ok (.ok sig) ∧
      ed448_verify (hashOf x.2) (sig.as_slice.drop 114) (sig.as_slice.take 114) m = .ok (.ok true)} ≤ 5 / 2 ^ 31 := by
  refine (C90_prehash 200 [[1], [2, 3]] (by decide)).trans ?_
  norm_num

/-- `C91_keys` for a million keys. -/
example : chance {x : (Fin 1000000 → Fin 57 → Byte) × (Short 57 → Out) | ∃ i j, i ≠ j ∧
      ed448_derive_public (hashOf x.2) (keyOf (x.1 i)) = ed448_derive_public (hashOf x.2) (keyOf (x.1 j))} ≤ 1 / 2 ^ 400 := by
  refine (C91_keys 57 1000000 (Nat.le_refl _)).trans ?_
  norm_num

/-- `C91_one_key` for two messages. -/
example (k : Fin 57 → Byte) : chance {f : Short 200 → Out | ∃ m ∈ [[1], [2, 3]], ∃ m' ∈ [[1], [2, 3]], m ≠ m' ∧ SameStart (hashOf f) (keyOf k) m (keyOf k) m'} ≤
    1 / 2 ^ 440 := by
  refine (C91_one_key 200 k [[1], [2, 3]] (by decide)).trans ?_
  norm_num

/-- `C95_fixed_half_accepted` for the verifier with one repair. -/
example : chance {x : ordinaryKeys × (Short 126 → Out) |
    LibForges (fun xof pk m sig => Repairs.first.ed448_verify xof pk sig m = .ok (.ok true)) fixedForger (hashOf x.2) (keyOf x.1) (10 ^ 9)} ≤ 1 / 2 ^ 170 :=
  C95_fixed_half_accepted _ rfl _ _ fixedForger_bounded _ (by norm_num) fixedForger_fixed

/-! ## Forgers with a fixed second half or a fixed offer, for whom the hypotheses hold with small numbers -/

theorem ordinaryKeys_nonempty : ordinaryKeys.Nonempty := by
  refine ⟨fun _ => 0, ?_⟩
  show signBit (List.ofFn fun _ : Fin 57 => (0 : Byte)) = 0
  decide +kernel

/-- Exact comparison, the length of the signature, and the range of the second half. -/
def threeRepairs : Repairs := ⟨true, false, false, true, true, false⟩

section
variable (n : ℕ) (hn : n < 2 ^ 100)
include hn

/-- `C86_library`, for all keys without the sign bit. -/
example : chance {x : ordinaryKeys × (Short 126 → Out) | LibForges RFC.Valid fixedForger (hashOf x.2) (keyOf x.1) n} ≤
    (1 + q / 2 ^ 912) ^ n * (1 / 2 ^ 172 + (n + 1) * (1 / q + 1 / 2 ^ 912) + n ^ 2 / q) + (n + 1) * (1 / Nat.card ordinaryKeys + 1 / 2 ^ 456) :=
  C86_library fixedForger 126 fixedForger_bounded ordinaryKeys ordinaryKeys_nonempty (fun _ h => h) n (1 / 2 ^ 172) (by positivity)
    (fixed_chance _ n hn fixedForger_fixed)

/-- `C87_library`, for the verifier with one repair. -/
example : chance {x : ordinaryKeys × (Short 126 → Out) |
      LibForges (fun xof pk m sig => Repairs.first.ed448_verify xof pk sig m = .ok (.ok true)) fixedForger (hashOf x.2) (keyOf x.1) n} ≤
    (1 + q / 2 ^ 912) ^ n * (1 / 2 ^ 172 + (n + 1) * (1 / q + 1 / 2 ^ 912) + n ^ 2 / q) + (n + 1) * (1 / Nat.card ordinaryKeys + 1 / 2 ^ 456) :=
  C87_library Repairs.first rfl fixedForger 126 fixedForger_bounded ordinaryKeys ordinaryKeys_nonempty (fun _ h => h) n (1 / 2 ^ 172) (by positivity)
    (fixed_chance _ n hn fixedForger_fixed)

variable (Rs ms : ℕ → List Byte) (m sig : List Byte) (L : ℕ) (hR : ∀ i, (Rs i).length = 57) (hs : 57 ≤ sig.length) (hms : ∀ i, (ms i).length + 124 ≤ L)
  (hm : m.length + 124 ≤ L)
include hR hs hms hm

/-- `C88_direct`. -/
example : chance {x : directKeys × (Short L → Out) | LibForges RFC.Valid (guesser Rs ms m sig) (hashOf x.2) (keyOf x.1) n} ≤
    2 * (1 / 2 ^ 172) + 2 * (1 / 2 ^ 344) + 1 / 2 ^ 240 :=
  C88_direct _ L (guesser_bounded hR hms hm) n hn _ _ (by positivity) (fixed_chance _ n hn fun _ _ _ => rfl) (guesser_findChance Rs ms m sig n hn hR hs)

/-- `C88_verifiers`, for the verifier with one repair. -/
example : chance {x : (Fin 57 → Byte) × (Short L → Out) |
      LibForges (fun xof pk m sig => Repairs.first.ed448_verify xof pk sig m = .ok (.ok true)) (guesser Rs ms m sig) (hashOf x.2) (keyOf x.1) n} ≤
    2 * (1 / 2 ^ 172) + 1 / 2 ^ 344 + 1 / 2 ^ 240 :=
  C88_verifiers Repairs.first rfl _ L (guesser_bounded hR hms hm) n hn _ _ (by positivity) (fixed_chance _ n hn fun _ _ _ => rfl)
    (guesser_findChance Rs ms m sig n hn hR hs)

/-- `C89_verifiers`, for the verifier with the three repairs that it needs. -/
example : chance {x : (Fin 57 → Byte) × (Short L → Out) |
      LibStrong (fun xof pk m sig => threeRepairs.ed448_verify xof pk sig m = .ok (.ok true)) (guesser Rs ms m sig) (hashOf x.2) (keyOf x.1) n} ≤
    2 * (1 / 2 ^ 172) + 1 / 2 ^ 344 + 1 / 2 ^ 240 :=
  C89_verifiers threeRepairs rfl rfl rfl _ L (guesser_bounded hR hms hm) n hn _ _ (by positivity) (fixed_chance _ n hn fun _ _ _ => rfl)
    (guesser_findChance Rs ms m sig n hn hR hs)

variable {N : ℕ} (is : ℕ → Fin N) (i : Fin N) (hN : N + 2 * n < 2 ^ 100)
include hN

/-- `C92_verifiers`. -/
example : chance {x : (Fin N → Fin 57 → Byte) × (Short L → Out) |
      UsersStrong (fun xof pk m sig => threeRepairs.ed448_verify xof pk sig m = .ok (.ok true)) (usersGuesser is Rs ms i m sig) (hashOf x.2)
        (fun i => keyOf (x.1 i)) n} ≤ N * (2 * (1 / 2 ^ 172) + 1 / 2 ^ 344 + 1 / 2 ^ 240) :=
  C92_verifiers threeRepairs rfl rfl rfl _ L (usersGuesser_bounded hR hms hm) n hN _ _ (by positivity)
    (fun j ks => fixed_chance (against (usersGuesser is Rs ms i m sig) j ks) _ hN fun _ _ _ => rfl) (usersGuesser_findChance is Rs ms i m sig n hN hR hs)

/-- `C92_messages`, for the verifier with one repair. -/
example : chance {x : (Fin N → Fin 57 → Byte) × (Short L → Out) |
      UsersForge (fun xof pk m sig => Repairs.first.ed448_verify xof pk sig m = .ok (.ok true)) (usersGuesser is Rs ms i m sig) (hashOf x.2)
        (fun i => keyOf (x.1 i)) n} ≤ N * (2 * (1 / 2 ^ 172) + 1 / 2 ^ 344 + 1 / 2 ^ 240) :=
  C92_messages Repairs.first rfl _ L (usersGuesser_bounded hR hms hm) n hN _ _ (by positivity)
    (fun j ks => fixed_chance (against (usersGuesser is Rs ms i m sig) j ks) _ hN fun _ _ _ => rfl) (usersGuesser_findChance is Rs ms i m sig n hN hR hs)

end

/-- `C86_unforgeable` for a certain secret and a forger with a fixed second half, with w = 0. -/
example (shake : Xof) (pk : List Byte) (n : ℕ) :
    let a : Fin 57 → Byte := fun _ => 0
    let s := RFC.secretScalar (List.ofFn a)
    chance {x : (ordinaryKeys × (Fin 57 → Byte)) × ((Fin (n + 1) → Out) × (Fin n → Out)) | 
        FullWins plain (fixedForger pk) shake (List.ofFn x.1.1.1) (keyHash a x.1.2) s (List.ofFn x.1.2) n (extend x.2.1) (extend x.2.2)} ≤
      (1 + q / 2 ^ 912) ^ n * (0 + (n + 1) * (1 / q + 1 / 2 ^ 912) + n ^ 2 / q) + (n + 1) * (1 / Nat.card ordinaryKeys + 1 / 2 ^ 456) := by
  intro a s
  have hs : s % q ≠ 0 := by
    rw [← qN_eq]
    decide +kernel
  refine C86_unforgeable plain (fixedForger pk) shake ordinaryKeys ordinaryKeys_nonempty a n 0 le_rfl ?_
  have h : ∀ x : ((Fin (n + 1) → Out) × (Fin (n + 1) → Out)) × (Fin n → Fin q),
      extract (fixedForger pk) (fun i => blindSigner (s • B) (coin x.2 i)) (RFC.publicOf s) n (extend x.1.1) (extend x.1.2) = 0 := fun x =>
    fixed_extract _ (fixedForger_fixed pk) _ _ _ _ _
  have e : {x : ((Fin (n + 1) → Out) × (Fin (n + 1) → Out)) × (Fin n → Fin q) |
      extract (fixedForger pk) (fun i => blindSigner (s • B) (coin x.2 i)) (RFC.publicOf s) n (extend x.1.1) (extend x.1.2) % q = s % q} = ∅ := by
    ext x
    rw [Set.mem_ofPred_eq, h x, Nat.zero_mod]
    exact iff_of_false (fun e => hs e.symm) (fun e => e)
  show _ * chance {x : ((Fin (n + 1) → Out) × (Fin (n + 1) → Out)) × (Fin n → Fin q) |
      extract (fixedForger pk) (fun i => blindSigner (s • B) (coin x.2 i)) (RFC.publicOf s) n (extend x.1.1) (extend x.1.2) % q = s % q} ≤ _
  rw [e, chance, Set.ncard_empty]
  simp

/-- `C62_field_verify` for the key and the signature of the test suite. -/
example : Alg.verify F Shake.shake256 Vectors.testKey Vectors.testSig Vectors.fox = .ok (.ok true) := by
  rw [← C62_field_verify _ _ _ _ (by unfold ZeroInput; decide +kernel)]
  exact Vectors.test_verify

/-- `C62_evaluate`, the same. -/
example : Alg.verify Alg.Zp Shake.shake256 Vectors.testKey Vectors.testSig Vectors.fox = .ok (.ok true) := by
  rw [← C62_evaluate _ _ _ _ (by unfold ZeroInput; decide +kernel)]
  exact Vectors.test_verify

/-- `C67_secrets` for the smallest secret and the private key of a test vector. -/
example (xof : Xof) : Set.ncard {h : Fin 114 → Byte | ∃ A, ed448_derive_public (reprogram xof Witness.rfcKey.1 h) Witness.rfcKey = .ok A ∧
    A.1 = RFC.publicOf (4 * 0 + 2 ^ 447)} = 2 ^ 467 := C67_secrets xof Witness.rfcKey Witness.rfcKey_sign 0 (by norm_num)

/-- `C67_nonces` for the first half that is the encoding of the base point. -/
example (xof : Xof) (m : List Byte) : 2 ^ 465 ≤ Set.ncard {h : Fin 114 → Byte | ∃ sig,
    ed448_sign (reprogram xof (RFC.dom4 ++ keySeed xof Witness.rfcKey.1 ++ m) h) Witness.rfcKey m = .ok sig ∧ sig.1.take 57 = encodePoint (1 • B)} := by
  obtain ⟨h1, h2⟩ := C67_nonces xof Witness.rfcKey m 1 (by rw [← qN_eq]; decide +kernel)
  rcases h1 with h1 | h1 <;> (rw [h1]; omega)

/-- `C84_alone`: two threads make keys in turn. The keys of each are those it would have made alone with its own blocks of the generator. -/
example (xof : Xof) (stream : ℕ → Byte) :
    let rng : Rng ℕ := ⟨fun n pos => (⟨(List.range n).map (fun i => stream (pos + i)), by simp⟩, pos + n)⟩
    let t := (Threads.start 0 : Threads Bool ℕ).run xof rng [.call true .signingRandom, .call false .signingRandom, .call true .signingRandom]
    (t.held true).signing = ((Client.start ([0, 2].flatMap (block stream))).run xof tapeRng [.signingRandom, .signingRandom]).signing ∧ t.rng = 171 := by
  intro rng t
  have h := C84_alone xof stream rng (fun _ _ => ⟨rfl, rfl⟩) [(true, .signingRandom), (false, .signingRandom), (true, .signingRandom)]
  exact ⟨(h.1 true).2.2.1, h.2.1⟩

/-- The hypotheses of `C95_needed` are met by w = 2 and v = 1. -/
example (m : List Byte) : (1 : ℚ) ≤ 2 * 2 + 1 + 1 / 2 ^ 240 := by
  have _ : Nonempty (Fin q) := ⟨⟨0, q_pos⟩⟩
  refine C95_needed m 2 1 (by norm_num) ?_ (chance_le_one _)
  refine (mul_le_mul_of_nonneg_left (chance_le_one _) (by positivity)).trans ?_
  norm_num

/-- `C87_loose` for the verifier with all repairs, and signatures of the library. -/
example (xof : Xof) (k : Arr Byte 57) (m : List Byte) : ∃ A sig, ed448_derive_public xof k = .ok A ∧ ed448_sign xof k m = .ok sig ∧ Loose plain xof A.1 m sig.1 := by
  obtain ⟨A, sig, h1, h2, h3⟩ := C80_roundtrip xof k m
  rw [← (C82_ends _ _ _ _).2] at h3
  exact ⟨A, sig, h1, h2, C87_loose Repairs.all rfl xof k A m sig.1 h1 h3⟩

/-- `C86_accepted`: the repaired verifier accepts the offers of the forger who computes discrete logarithms. -/
example (xof : Xof) (k : Arr Byte 57) (m : List Byte) : ∃ pk : Arr Byte 57, ed448_derive_public xof k = .ok pk ∧
    Repaired.ed448_verify xof pk.1 ((unlimited m pk.1).forge (libSeen (unlimited m pk.1) xof k 1)).2
      ((unlimited m pk.1).forge (libSeen (unlimited m pk.1) xof k 1)).1 = .ok (.ok true) ∧ LibForges RFC.Valid (unlimited m) xof k 1 := by
  obtain ⟨pk, h1, _, h3⟩ := C95_unlimited m xof k
  obtain ⟨pk', k1, k2⟩ := derive_spec xof k
  rw [h1] at k1
  injection k1 with k1
  have hz : pk.1 ≠ List.replicate 57 0 := by
    rw [k1, k2]
    exact encode_smul_B_ne_zero _
  have hv := (C80_exact _ _ _ _).1.mpr ⟨Repairs.nonzero_of_take hz (encodePoint_length (1 • B)) (encode_smul_B_ne_zero 1), h3⟩
  exact ⟨pk, h1, hv, C86_accepted (unlimited m) xof k pk 1 h1 (fun i _ h => by cases h) hv⟩

end Ed448
