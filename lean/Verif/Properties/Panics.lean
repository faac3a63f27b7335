import Verif.Properties.Refinement
import Verif.Properties.Hash
import Verif.Spec.Panics

/-!
# C109: the complete list of calls that panic
-/

namespace Ed448

/-- A computation panics. -/
def Panicked {α : Type} (r : Rust α) : Prop := ∃ why, r = .error why

/-- What the model does for a call: whether it panics. -/
def PublicCall.panics {ε σ : Type} (xof : Xof) : PublicCall ε σ → Prop
  | .secretFromStr s => Panicked (SecretKey.from_str s)
  | .secretFromBytes b => Panicked (SecretKey.from_bytes b)
  | .secretDeserialize d => Panicked (SecretKey.deserialize d)
  | .verifyingFromStr s => Panicked (VerifyingKey.from_str s)
  | .verifyingFromBytes b => Panicked (VerifyingKey.from_bytes b)
  | .verifyingDeserialize d => Panicked (VerifyingKey.deserialize d)
  | .signingFromStr s => Panicked (SigningKey.from_str xof s)
  | .signingFromSlice b => Panicked (SigningKey.from_slice xof b)
  | .signingFromBytes b => Panicked (SigningKey.from_bytes xof b)
  | .signingFromSecret k => Panicked (SigningKey.fromSecretKey xof k)
  | .signingDeserialize d => Panicked (SigningKey.deserialize xof d)
  | .signingRandom rng st => Panicked (SigningKey.random xof rng st)
  | .signPrehash k m => Panicked (k.sign_prehash xof m)
  | .hexToMessageHash s => Panicked (hex_to_message_hash s)
  | .hexToPrivateKey s => Panicked (hex_to_private_key s)
  | .hexToSignature s => Panicked (hex_to_signature s)
  | .pointBySecret k => Panicked (point_by_secret k)
  | .secretToPublic k => Panicked (secret_to_public k)
  | .privateToPublic k => Panicked (private_to_public xof k)
  | .signByPrivate k m => Panicked (sign_by_private xof k m)
  | .signWithSecretAndNonce k n m => Panicked (sign_with_secret_and_nonce xof k n m)
  | .derivePublic k => Panicked (ed448_derive_public xof k)
  | .sign k m => Panicked (ed448_sign xof k m)
  | .verify pk sig m => Panicked (ed448_verify xof pk sig m)
  | .verifyWithError pk sig m => Panicked (ed448_verify_with_error xof pk sig m)

theorem not_panicked {α : Type} {r : Rust α} (h : ∃ a, r = .ok a) : ¬ Panicked r := by
  obtain ⟨a, rfl⟩ := h
  rintro ⟨_, h⟩
  cases h

theorem panicked_bind_ok {α β : Type} (r : Rust α) (f : α → Rust β) (h : ∀ a, ∃ b, f a = .ok b) : Panicked (r >>= f) ↔ Panicked r := by
  cases r with
  | error e => exact ⟨fun _ => ⟨e, rfl⟩, fun _ => ⟨e, rfl⟩⟩
  | ok a => exact iff_of_false (not_panicked (h a)) (not_panicked ⟨a, rfl⟩)

theorem isDigit_lt {c : Byte} {v : ℕ} (h : IsDigit c v) : v < 16 := by
  rcases h with h | h <;> omega

theorem hexOf_exists : ∀ (n : ℕ) (s : List Byte), (∃ b : List Byte, b.length = n ∧ HexOf s b) ↔ DigitString (2 * n) s
  | 0, s => by
    constructor
    · rintro ⟨b, hb, h⟩
      rw [List.length_eq_zero_iff] at hb
      subst hb
      cases h
      exact ⟨rfl, by simp⟩
    · rintro ⟨h, _⟩
      rw [Nat.mul_zero, List.length_eq_zero_iff] at h
      subst h
      exact ⟨[], rfl, .nil⟩
  | n + 1, s => by
    constructor
    · rintro ⟨b, hb, h⟩
      cases h with
      | nil => cases hb
      | cons h1 h2 h3 =>
        obtain ⟨g1, g2⟩ := (hexOf_exists n _).mp ⟨_, Nat.succ.inj hb, h3⟩
        refine ⟨by simp only [List.length_cons, g1]; omega, ?_⟩
        intro c hc
        rcases List.mem_cons.mp hc with rfl | hc
        · exact ⟨_, h1⟩
        · rcases List.mem_cons.mp hc with rfl | hc
          · exact ⟨_, h2⟩
          · exact g2 c hc
    · rintro ⟨h1, h2⟩
      match s, h1, h2 with
      | [], h1, _ => simp at h1
      | [_], h1, _ => simp only [List.length_cons, List.length_nil] at h1; omega
      | c :: c' :: s, h1, h2 =>
        obtain ⟨v, hv⟩ := h2 c (by simp)
        obtain ⟨w, hw⟩ := h2 c' (by simp)
        obtain ⟨b, hb, hs⟩ := (hexOf_exists n s).mpr ⟨by simp only [List.length_cons] at h1; omega, fun x hx => h2 x (by simp [hx])⟩
        have hv' := isDigit_lt hv
        have hw' := isDigit_lt hw
        have e : (BitVec.ofNat 8 (16 * v + w)).toNat = 16 * v + w := by
          rw [BitVec.toNat_ofNat, Nat.mod_eq_of_lt (by omega)]
        refine ⟨BitVec.ofNat 8 (16 * v + w) :: b, by simp [hb], .cons ?_ ?_ hs⟩
        · rw [e, show (16 * v + w) / 16 = v by omega]
          exact hv
        · rw [e, show (16 * v + w) % 16 = w by omega]
          exact hw

theorem hexToArr_panics (n : ℕ) (s : List Byte) : Panicked (hexToArr n s) ↔ ¬ DigitString (2 * n) s := by
  rw [← hexOf_exists]
  constructor
  · rintro ⟨why, h⟩ ⟨b, hb, hs⟩
    rw [(hexToArr_iff n s ⟨b, hb⟩).mpr hs] at h
    cases h
  · intro h
    exact ⟨_, (hexToArr_cases n s).2 fun ⟨a, ha⟩ => h ⟨a.1, a.2, ha⟩⟩

theorem deserializeWith_panics {α ε : Type} (f : List Byte → Rust α) (hf : ∀ s, Panicked (f s) ↔ ¬ DigitString 114 s) (d : Deserializer ε) :
    Panicked (deserializeWith f d) ↔ d.is_human_readable = true ∧ ∃ s, d.string = .ok s ∧ ¬ DigitString 114 s := by
  obtain ⟨hr, r⟩ := d
  cases hr with
  | false => exact iff_of_false (not_panicked ⟨_, rfl⟩) (by simp)
  | true =>
    cases r with
    | error e => exact iff_of_false (not_panicked ⟨_, rfl⟩) (by simp)
    | ok s =>
      show Panicked (f s >>= fun k => pure (Except.ok k)) ↔ _
      refine (panicked_bind_ok _ _ fun a => ⟨_, rfl⟩).trans ((hf s).trans ?_)
      exact ⟨fun h => ⟨rfl, s, rfl, h⟩, fun ⟨_, t, ht, h⟩ => by cases ht; exact h⟩

/-- C109. The complete list of calls that panic: whatever the hash function, a call of a public function panics if and only if it is in the list
`PublicCall.Bad`. -/
theorem C109_panics {ε σ : Type} (xof : Xof) (c : PublicCall ε σ) : c.panics xof ↔ c.Bad := by
  have hderive : ∀ k, ∃ A, ed448_derive_public xof k = .ok A := fun k => (C29_no_panic xof k []).1
  have hsign : ∀ k m, ∃ s, ed448_sign xof k m = .ok s := fun k m => (C29_no_panic xof k m).2
  have hsec : ∀ s, Panicked (SecretKey.from_str s) ↔ ¬ DigitString 114 s := fun s => by
    rw [SecretKey.from_str]
    exact (panicked_bind_ok _ _ fun a => ⟨_, rfl⟩).trans (hexToArr_panics 57 s)
  have hver : ∀ s, Panicked (VerifyingKey.from_str s) ↔ ¬ DigitString 114 s := fun s => by
    rw [VerifyingKey.from_str]
    exact (panicked_bind_ok _ _ fun a => ⟨_, rfl⟩).trans (hexToArr_panics 57 s)
  have hsig : ∀ s, Panicked (SigningKey.from_str xof s) ↔ ¬ DigitString 114 s := fun s => by
    rw [SigningKey.from_str, panicked_bind_ok _ _ fun a => ?_]
    · exact hexToArr_panics 57 s
    · obtain ⟨A, hA⟩ := hderive a
      rw [hA]
      exact ⟨_, rfl⟩
  have no : ∀ {α : Type} {r : Rust α}, (∃ a, r = .ok a) → (Panicked r ↔ False) := fun h => iff_of_false (not_panicked h) id
  cases c with
  | secretFromStr s => exact hsec s
  | secretFromBytes b => exact (C22_length_errors xof b).2.2.2.1.symm
  | secretDeserialize d => exact deserializeWith_panics _ hsec d
  | verifyingFromStr s => exact hver s
  | verifyingFromBytes b => exact (C22_length_errors xof b).2.2.2.2.symm
  | verifyingDeserialize d => exact deserializeWith_panics _ hver d
  | signingFromStr s => exact hsig s
  | signingFromSlice b => exact (C22_length_errors xof b).2.2.1.symm
  | signingFromBytes b => exact no (C22_length_errors xof b).2.1
  | signingFromSecret k =>
    obtain ⟨A, _, h, _⟩ := from_slice_spec (xof := xof) k.key.2
    exact no ⟨_, h⟩
  | signingDeserialize d => exact deserializeWith_panics _ hsig d
  | signingRandom rng st =>
    obtain ⟨_, k, h, _⟩ := C44_random xof rng st
    exact no ⟨_, h⟩
  | signPrehash k m =>
    refine no ?_
    obtain ⟨s, hs⟩ := hsign k.secret_key.key m
    rw [SigningKey.sign_prehash, hs]
    exact ⟨_, rfl⟩
  | hexToMessageHash s => exact hexToArr_panics 32 s
  | hexToPrivateKey s => exact hexToArr_panics 57 s
  | hexToSignature s => exact hexToArr_panics 114 s
  | pointBySecret k =>
    obtain ⟨P, h, _⟩ := point_by_secret_spec k
    exact no ⟨P, h⟩
  | secretToPublic k =>
    obtain ⟨P, h, _⟩ := secret_to_public_spec k
    exact no ⟨P, h⟩
  | privateToPublic k =>
    obtain ⟨P, h, _⟩ := private_to_public_spec xof k
    exact no ⟨P, h⟩
  | signByPrivate k m =>
    obtain ⟨P, h, _⟩ := sign_by_private_spec xof k m
    exact no ⟨P, h⟩
  | signWithSecretAndNonce k n m =>
    obtain ⟨P, h, _⟩ := sign_with_secret_spec xof k n m
    exact no ⟨P, h⟩
  | derivePublic k => exact no (hderive k)
  | sign k m => exact no (hsign k m)
  | verify pk sig m =>
    show Panicked (ed448_verify xof pk sig m) ↔ pk ≠ List.replicate 57 0 ∧ Accepted pk ∧ sig.length < 114
    constructor
    · rintro ⟨why, h⟩
      obtain ⟨h1, h2, h3, _⟩ := (C09_panic_iff xof pk sig m why).1.mp h
      exact ⟨h1, h2, h3⟩
    · rintro ⟨h1, h2, h3⟩
      exact ⟨_, (C09_panic_iff xof pk sig m _).1.mpr ⟨h1, h2, h3, rfl⟩⟩
  | verifyWithError pk sig m =>
    show Panicked (ed448_verify_with_error xof pk sig m) ↔ pk ≠ List.replicate 57 0 ∧ Accepted pk ∧ sig.length < 114
    constructor
    · rintro ⟨why, h⟩
      obtain ⟨h1, h2, h3, _⟩ := (C09_panic_iff xof pk sig m why).1.mp ((C09_panic_iff xof pk sig m why).2.mp h)
      exact ⟨h1, h2, h3⟩
    · rintro ⟨h1, h2, h3⟩
      exact ⟨_, (C09_panic_iff xof pk sig m _).2.mpr ((C09_panic_iff xof pk sig m _).1.mpr ⟨h1, h2, h3, rfl⟩)⟩

/-- C109. A program that reads a key from data of somebody else, in a serde format for humans such as JSON, panics for any string that is not 114 digits,
although `deserialize` has a way to return an error. -/
theorem C109_serde {ε : Type} (xof : Xof) (s : List Byte) (h : ¬ DigitString 114 s) :
    (∃ why, SecretKey.deserialize (⟨true, .ok s⟩ : Deserializer ε) = .error why) ∧
    (∃ why, VerifyingKey.deserialize (⟨true, .ok s⟩ : Deserializer ε) = .error why) ∧
    (∃ why, SigningKey.deserialize xof (⟨true, .ok s⟩ : Deserializer ε) = .error why) :=
  ⟨(C109_panics (σ := Unit) xof (.secretDeserialize ⟨true, .ok s⟩)).mpr ⟨rfl, s, rfl, h⟩,
    (C109_panics (σ := Unit) xof (.verifyingDeserialize ⟨true, .ok s⟩)).mpr ⟨rfl, s, rfl, h⟩,
    (C109_panics (σ := Unit) xof (.signingDeserialize ⟨true, .ok s⟩)).mpr ⟨rfl, s, rfl, h⟩⟩

/-- The empty string, 113 digits, and 114 characters one of which is `g` are no keys; 114 digits are. -/
example : ¬ DigitString 114 [] ∧ ¬ DigitString 114 (List.replicate 113 0x30) ∧ ¬ DigitString 114 (0x67 :: List.replicate 113 0x30) ∧
    DigitString 114 (0x46 :: List.replicate 113 0x30) := by
  refine ⟨fun h => by simpa using h.1, fun h => by simpa using h.1, fun h => ?_, by simp, ?_⟩
  · obtain ⟨v, hv⟩ := h.2 0x67 (by simp)
    have e : (0x67 : Byte).toNat = 103 := by decide
    rcases hv with ⟨h1, h2⟩ | ⟨h1, h2, h3 | h3⟩
    · rw [e] at h2; simp at h2; omega
    · rw [e] at h3; simp at h3; omega
    · rw [e] at h3; simp at h3; omega
  · intro c hc
    rcases List.mem_cons.mp hc with rfl | hc
    · exact ⟨15, by decide⟩
    · rw [(List.mem_replicate.mp hc).2]
      exact ⟨0, by decide⟩

end Ed448
