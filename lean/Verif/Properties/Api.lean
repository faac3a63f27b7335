import Verif.Properties.OffCurve
import Verif.Model.Lib
import Verif.Spec.Hex

/-!
# The key types: C20 to C28, C44, C45
-/

set_option exponentiation.threshold 1000

namespace Ed448

/-! ### Hexadecimal strings -/

theorem hexVal_cases : ∀ c : Fin 256, ∀ w : Fin 256, hexVal (BitVec.ofFin c) = some (BitVec.ofFin w) ↔ IsDigit (BitVec.ofFin c) w := by
  decide +kernel

theorem IsDigit.lt {c : BitVec 8} {v : ℕ} (h : IsDigit c v) : v < 16 := by
  rcases h with h | h <;> omega

theorem hexVal_some {c v : Byte} : hexVal c = some v ↔ IsDigit c v.toNat := hexVal_cases c.toFin v.toFin

theorem join_nibbles : ∀ x y : Fin 16, ((BitVec.ofNat 8 x.val <<< 4) ||| BitVec.ofNat 8 y.val).toNat = 16 * x.val + y.val := by decide +kernel

theorem join_toNat {x y : Byte} (hx : x.toNat < 16) (hy : y.toNat < 16) : ((x <<< 4) ||| y).toNat = 16 * x.toNat + y.toNat := by
  have h := join_nibbles ⟨x.toNat, hx⟩ ⟨y.toNat, hy⟩
  simpa [BitVec.ofNat_toNat] using h

theorem hexDecodeList_iff (s : List Byte) (b : List Byte) : hexDecodeList s = some b ↔ HexOf s b := by
  constructor
  · intro h
    fun_induction hexDecodeList s generalizing b with
    | case1 => simp at h; subst h; exact .nil
    | case2 => simp at h
    | case3 c c' rest x y r hr hy hx ih =>
      injection h with h
      subst h
      have h1 := hexVal_some.mp hx
      have h2 := hexVal_some.mp hy
      have e := join_toNat h1.lt h2.lt
      refine .cons ?_ ?_ (ih r hr)
      · rw [e]
        have := h2.lt
        rw [show (16 * x.toNat + y.toNat) / 16 = x.toNat by omega]
        exact h1
      · rw [e]
        have := h2.lt
        rw [show (16 * x.toNat + y.toNat) % 16 = y.toNat by omega]
        exact h2
    | case4 => simp at h
  · intro h
    induction h with
    | nil => rfl
    | @cons c c' b s bs h1 h2 h3 ih =>
      have e1 : hexVal c = some (BitVec.ofNat 8 (b.toNat / 16)) := by
        rw [hexVal_some, BitVec.toNat_ofNat, Nat.mod_eq_of_lt (by have := b.isLt; omega)]
        exact h1
      have e2 : hexVal c' = some (BitVec.ofNat 8 (b.toNat % 16)) := by
        rw [hexVal_some, BitVec.toNat_ofNat, Nat.mod_eq_of_lt (by omega)]
        exact h2
      rw [hexDecodeList, e1, e2, ih]
      have hb := b.isLt
      refine congrArg some (congrArg (· :: bs) (BitVec.eq_of_toNat_eq ?_))
      rw [join_toNat (by rw [BitVec.toNat_ofNat]; omega) (by rw [BitVec.toNat_ofNat]; omega), BitVec.toNat_ofNat, BitVec.toNat_ofNat]
      omega

theorem HexOf.length {s b : List Byte} (h : HexOf s b) : s.length = 2 * b.length := by
  induction h with
  | nil => rfl
  | cons _ _ _ ih => simp only [List.length_cons, ih]; omega

theorem hexToArr_iff (n : ℕ) (s : List Byte) (a : Arr Byte n) : hexToArr n s = .ok a ↔ HexOf s a.1 := by
  constructor
  · intro h
    unfold hexToArr at h
    split at h
    · cases h
    · split at h
      · cases h
      · split at h
        · next l hl =>
          split at h
          · injection h with h
            rw [← h]
            exact (hexDecodeList_iff s l).mp hl
          · cases h
        · cases h
  · intro h
    have hl := h.length
    rw [a.2] at hl
    unfold hexToArr
    rw [if_neg (by omega), if_neg (by omega), (hexDecodeList_iff s a.1).mpr h]
    dsimp only
    rw [dif_pos a.2]

theorem hexToArr_total (n : ℕ) (s : List Byte) : (∃ a, hexToArr n s = .ok a) ∨ hexToArr n s = .error .expect := by
  unfold hexToArr
  split
  · exact Or.inr rfl
  · split
    · exact Or.inr rfl
    · split
      · split
        · exact Or.inl ⟨_, rfl⟩
        · exact Or.inr rfl
      · exact Or.inr rfl

/-- The parsers of hexadecimal strings return `a` exactly if the string spells `a`, and panic if it spells nothing of the right length. The
same for the constructors from strings. -/
theorem hexToArr_cases (n : ℕ) (s : List Byte) :
    (∀ a : Arr Byte n, hexToArr n s = .ok a ↔ HexOf s a.1) ∧
    ((¬ ∃ a : Arr Byte n, HexOf s a.1) → hexToArr n s = .error .expect) := by
  refine ⟨hexToArr_iff n s, fun h => ?_⟩
  rcases hexToArr_total n s with ⟨a, ha⟩ | h1
  · exact absurd ⟨a, (hexToArr_iff n s a).mp ha⟩ h
  · exact h1

/-- C25. The parsers of hexadecimal strings and the constructors from strings return `a` exactly if the string spells `a`, and panic if it spells
nothing of the right length. -/
theorem C25_parsers (s : List Byte) :
    (∀ a, hex_to_private_key s = .ok a ↔ HexOf s a.1) ∧ (∀ a, hex_to_signature s = .ok a ↔ HexOf s a.1) ∧
    (∀ a, hex_to_message_hash s = .ok a ↔ HexOf s a.1) ∧
    (∀ k, SecretKey.from_str s = .ok k ↔ HexOf s k.key.1) ∧ (∀ k, VerifyingKey.from_str s = .ok k ↔ HexOf s k.key.1) ∧
    ((¬ ∃ b, b.length = 57 ∧ HexOf s b) → hex_to_private_key s = .error .expect ∧ SecretKey.from_str s = .error .expect ∧
      VerifyingKey.from_str s = .error .expect ∧ ∀ xof, SigningKey.from_str xof s = .error .expect) ∧
    ((¬ ∃ b, b.length = 114 ∧ HexOf s b) → hex_to_signature s = .error .expect) ∧
    ((¬ ∃ b, b.length = 32 ∧ HexOf s b) → hex_to_message_hash s = .error .expect) := by
  have hk := hexToArr_iff 57 s
  refine ⟨hk, hexToArr_iff 114 s, hexToArr_iff 32 s, fun k => ?_, fun k => ?_, fun h => ?_, fun h => ?_, fun h => ?_⟩
  · rw [← hk k.key, SecretKey.from_str, hex_to_private_key]
    rcases hexToArr 57 s with e | a
    · simp [bind, Except.bind]
    · simp only [bind_ok, pure, Except.pure, Except.ok.injEq]
      exact ⟨fun h => by rw [← h], fun h => by rw [h]⟩
  · rw [← hk k.key, VerifyingKey.from_str, hex_to_private_key]
    rcases hexToArr 57 s with e | a
    · simp [bind, Except.bind]
    · simp only [bind_ok, pure, Except.pure, Except.ok.injEq]
      exact ⟨fun h => by rw [← h], fun h => by rw [h]⟩
  · have e : hexToArr 57 s = .error .expect := (hexToArr_cases 57 s).2 (fun ⟨a, ha⟩ => h ⟨a.1, a.2, ha⟩)
    refine ⟨e, ?_, ?_, fun xof => ?_⟩
    · rw [SecretKey.from_str, hex_to_private_key, e, bind_err]
    · rw [VerifyingKey.from_str, hex_to_private_key, e, bind_err]
    · rw [SigningKey.from_str, hex_to_private_key, e, bind_err]
  · exact (hexToArr_cases 114 s).2 (fun ⟨a, ha⟩ => h ⟨a.1, a.2, ha⟩)
  · exact (hexToArr_cases 32 s).2 (fun ⟨a, ha⟩ => h ⟨a.1, a.2, ha⟩)

/-- "0aF9" spells the bytes 0x0a, 0xf9. -/
example : HexOf [0x30, 0x61, 0x46, 0x39] [0x0a, 0xf9] :=
  .cons (by decide +kernel) (by decide +kernel) (.cons (by decide +kernel) (by decide +kernel) .nil)

/-! ### Construction of keys -/

/-- The signing keys that a program can get: the results of the constructors. -/
inductive Obtained (xof : Xof) : SigningKey → Prop
  | from_str {s k} : SigningKey.from_str xof s = .ok k → Obtained xof k
  | from_slice {s k} : SigningKey.from_slice xof s = .ok k → Obtained xof k
  | from_bytes {s k} : SigningKey.from_bytes xof s = .ok (.ok k) → Obtained xof k
  | from_secret {s k} : SigningKey.fromSecretKey xof s = .ok k → Obtained xof k
  | random {σ : Type} {rng : Rng σ} {st k st'} : SigningKey.random xof rng st = .ok (k, st') → Obtained xof k
  | deserialize {ε : Type} {d : Deserializer ε} {k} : SigningKey.deserialize xof d = .ok (.ok k) → Obtained xof k

theorem from_slice_spec {xof : Xof} {b : List Byte} (h : b.length = 57) :
    ∃ A, ed448_derive_public xof ⟨b, h⟩ = .ok A ∧ SigningKey.from_slice xof b = .ok ⟨⟨⟨b, h⟩⟩, ⟨A⟩⟩ ∧
      SigningKey.from_bytes xof b = .ok (.ok ⟨⟨⟨b, h⟩⟩, ⟨A⟩⟩) := by
  obtain ⟨A, hA, _⟩ := derive_spec xof ⟨b, h⟩
  refine ⟨A, hA, ?_, ?_⟩
  · rw [SigningKey.from_slice, toArr57, dif_pos h, bind_ok, hA, bind_ok]
    rfl
  · rw [SigningKey.from_bytes, if_neg (by simp [h]), toArr57, dif_pos h, bind_ok, hA, bind_ok]
    rfl

theorem from_slice_bad {xof : Xof} {b : List Byte} (h : b.length ≠ 57) : SigningKey.from_slice xof b = .error .bounds ∧
    SigningKey.from_bytes xof b = .ok (.error (.InvalidPrivKeyLengthErrro b.length)) := by
  constructor
  · rw [SigningKey.from_slice, toArr57, dif_neg h, bind_err]
  · rw [SigningKey.from_bytes, if_pos h]
    rfl

theorem from_str_spec {xof : Xof} {s : List Byte} {k : SigningKey} (h : SigningKey.from_str xof s = .ok k) :
    HexOf s k.secret_key.key.1 ∧ ed448_derive_public xof k.secret_key.key = .ok k.verifying_key.key := by
  rw [SigningKey.from_str, hex_to_private_key] at h
  rcases hs : hexToArr 57 s with e | a
  · rw [hs, bind_err] at h
    cases h
  · rw [hs, bind_ok] at h
    rcases ha : ed448_derive_public xof a with e | A
    · rw [ha, bind_err] at h
      cases h
    · rw [ha, bind_ok] at h
      injection h with h
      rw [← h]
      exact ⟨(hexToArr_iff 57 s a).mp hs, ha⟩

theorem from_slice_inv {xof : Xof} {b : List Byte} {k : SigningKey} (h : SigningKey.from_slice xof b = .ok k) :
    b = k.secret_key.key.1 ∧ ed448_derive_public xof k.secret_key.key = .ok k.verifying_key.key := by
  by_cases hl : b.length = 57
  · obtain ⟨A, h1, h2, h3⟩ := from_slice_spec (xof := xof) hl
    rw [h2] at h
    injection h with h
    rw [← h]
    exact ⟨rfl, h1⟩
  · rw [(from_slice_bad hl).1] at h
    cases h

/-- C20. The verifying key of every signing key that can be obtained is the public key derived from its bytes. -/
theorem C20_verifying_key (xof : Xof) (k : SigningKey) (h : Obtained xof k) :
    ed448_derive_public xof k.to_bytes = .ok k.get_verifying_key.key := by
  rcases h with h | h | h | h | h | h
  · exact (from_str_spec h).2
  · exact (from_slice_inv h).2
  · next s =>
    by_cases hl : s.length = 57
    · obtain ⟨A, h1, h2, h3⟩ := from_slice_spec (xof := xof) hl
      rw [h3] at h
      injection h with h
      injection h with h
      rw [← h]
      exact h1
    · rw [(from_slice_bad hl).2] at h
      injection h with h
      cases h
  · exact (from_slice_inv h).2
  · next σ rng st st' =>
    rw [SigningKey.random] at h
    rcases hf : SigningKey.from_slice xof (rng.fill_bytes 57 st).1.1 with e | k'
    · rw [hf, bind_err] at h
      cases h
    · rw [hf, bind_ok] at h
      injection h with h
      injection h with h
      rw [← h]
      exact (from_slice_inv hf).2
  · next ε d =>
    rw [SigningKey.deserialize, deserializeWith] at h
    split at h
    · split at h
      · injection h with h
        cases h
      · next s _ =>
        rcases hf : SigningKey.from_str xof s with e | k'
        · rw [hf, bind_err] at h
          cases h
        · rw [hf, bind_ok] at h
          injection h with h
          injection h with h
          rw [← h]
          exact (from_str_spec hf).2
    · injection h with h
      cases h

example (xof : Xof) : ∃ k, SigningKey.from_slice xof Witness.rfcKey.1 = .ok k ∧ Obtained xof k := by
  obtain ⟨A, _, h, _⟩ := from_slice_spec (xof := xof) Witness.rfcKey.2
  exact ⟨_, h, .from_slice h⟩

/-- C21. All constructors agree on the same 57 bytes, however their hexadecimal digits are written. -/
theorem C21_constructors_agree (xof : Xof) (b s : List Byte) (hb : b.length = 57) (hs : HexOf s b) :
    ∃ k, SigningKey.from_slice xof b = .ok k ∧ SigningKey.from_bytes xof b = .ok (.ok k) ∧ SigningKey.from_str xof s = .ok k ∧
      (∃ sk, SecretKey.from_bytes b = .ok sk ∧ SecretKey.from_str s = .ok sk ∧ SigningKey.fromSecretKey xof sk = .ok k) := by
  obtain ⟨A, h1, h2, h3⟩ := from_slice_spec (xof := xof) hb
  have hh : hexToArr 57 s = .ok ⟨b, hb⟩ := (hexToArr_iff 57 s ⟨b, hb⟩).mpr hs
  refine ⟨_, h2, h3, ?_, ⟨⟨b, hb⟩⟩, ?_, ?_, h2⟩
  · rw [SigningKey.from_str, hex_to_private_key, hh, bind_ok, h1, bind_ok]
    rfl
  · rw [SecretKey.from_bytes, toArr57, dif_pos hb, bind_ok]
    rfl
  · rw [SecretKey.from_str, hex_to_private_key, hh, bind_ok]
    rfl

/-- C22. Length errors. -/
theorem C22_length_errors (xof : Xof) (b : List Byte) :
    (b.length ≠ 57 ↔ SigningKey.from_bytes xof b = .ok (.error (.InvalidPrivKeyLengthErrro b.length))) ∧
    (∃ r, SigningKey.from_bytes xof b = .ok r) ∧
    (b.length ≠ 57 ↔ ∃ why, SigningKey.from_slice xof b = .error why) ∧
    (b.length ≠ 57 ↔ ∃ why, SecretKey.from_bytes b = .error why) ∧
    (b.length ≠ 57 ↔ ∃ why, VerifyingKey.from_bytes b = .error why) := by
  by_cases h : b.length = 57
  · obtain ⟨A, h1, h2, h3⟩ := from_slice_spec (xof := xof) h
    have e4 : SecretKey.from_bytes b = .ok ⟨⟨b, h⟩⟩ := by rw [SecretKey.from_bytes, toArr57, dif_pos h, bind_ok]; rfl
    have e5 : VerifyingKey.from_bytes b = .ok ⟨⟨b, h⟩⟩ := by rw [VerifyingKey.from_bytes, toArr57, dif_pos h, bind_ok]; rfl
    rw [h2, h3, e4, e5]
    simp [h]
  · obtain ⟨h2, h3⟩ := from_slice_bad (xof := xof) h
    have e4 : SecretKey.from_bytes b = .error .expect := by rw [SecretKey.from_bytes, toArr57, dif_neg h, bind_err]
    have e5 : VerifyingKey.from_bytes b = .error .expect := by rw [VerifyingKey.from_bytes, toArr57, dif_neg h, bind_err]
    rw [h2, h3, e4, e5]
    simp [h]

/-- C23. Round trips between keys and bytes. -/
theorem C23_byte_roundtrip (xof : Xof) :
    (∀ b k, SigningKey.from_bytes xof b = .ok (.ok k) → k.to_bytes.1 = b) ∧
    (∀ b k, VerifyingKey.from_bytes b = .ok k → k.as_bytes = b) ∧
    (∀ k, Obtained xof k → SigningKey.from_bytes xof k.to_bytes.1 = .ok (.ok k)) ∧
    (∀ k : VerifyingKey, VerifyingKey.from_bytes k.as_bytes = .ok k) := by
  refine ⟨fun b k h => ?_, fun b k h => ?_, fun k h => ?_, fun k => ?_⟩
  · by_cases hl : b.length = 57
    · obtain ⟨A, h1, h2, h3⟩ := from_slice_spec (xof := xof) hl
      rw [h3] at h
      injection h with h
      injection h with h
      rw [← h]
      rfl
    · rw [(from_slice_bad hl).2] at h
      injection h with h
      cases h
  · rw [VerifyingKey.from_bytes, toArr57] at h
    split at h
    · rw [bind_ok] at h
      injection h with h
      rw [← h]
      rfl
    · rw [bind_err] at h
      cases h
  · have hd := C20_verifying_key xof k h
    obtain ⟨A, h1, h2, h3⟩ := from_slice_spec (xof := xof) k.to_bytes.2
    rw [h3]
    rw [show (⟨k.to_bytes.1, k.to_bytes.2⟩ : Arr Byte 57) = k.to_bytes from rfl, hd] at h1
    injection h1 with h1
    rw [← h1]
    rfl
  · rw [VerifyingKey.from_bytes, toArr57, dif_pos (show k.as_bytes.length = 57 from k.key.2), bind_ok]
    rfl

example (xof : Xof) : ∃ k, SigningKey.from_bytes xof Witness.rfcKey.1 = .ok (.ok k) := by
  obtain ⟨A, _, _, h⟩ := from_slice_spec (xof := xof) Witness.rfcKey.2
  exact ⟨_, h⟩

/-- C23. The secret key that a signing key hands out is the one it was made from, and makes it again. -/
theorem C23_secret_key (xof : Xof) :
    (∀ s k, SigningKey.fromSecretKey xof s = .ok k → k.get_secret_key = s) ∧
    (∀ b k, SigningKey.from_bytes xof b = .ok (.ok k) → SecretKey.from_bytes b = .ok k.get_secret_key) ∧
    (∀ k, Obtained xof k → SigningKey.fromSecretKey xof k.get_secret_key = .ok k) := by
  refine ⟨fun s k h => ?_, fun b k h => ?_, fun k h => ?_⟩
  · obtain ⟨A, _, h2, _⟩ := from_slice_spec (xof := xof) s.key.2
    rw [SigningKey.fromSecretKey, h2] at h
    injection h with h
    rw [← h]
    rfl
  · by_cases hl : b.length = 57
    · obtain ⟨A, _, _, h3⟩ := from_slice_spec (xof := xof) hl
      rw [h3] at h
      injection h with h
      injection h with h
      rw [← h, SecretKey.from_bytes, toArr57, dif_pos hl, bind_ok]
      rfl
    · rw [(from_slice_bad hl).2] at h
      injection h with h
      cases h
  · have hd := C20_verifying_key xof k h
    obtain ⟨A, h1, h2, _⟩ := from_slice_spec (xof := xof) k.to_bytes.2
    rw [show (⟨k.to_bytes.1, k.to_bytes.2⟩ : Arr Byte 57) = k.to_bytes from rfl, hd] at h1
    injection h1 with h1
    rw [SigningKey.fromSecretKey, show k.get_secret_key.key.1 = k.to_bytes.1 from rfl, h2, ← h1]
    rfl

example (xof : Xof) : ∃ k, SigningKey.fromSecretKey xof ⟨Witness.rfcKey⟩ = .ok k ∧ Obtained xof k := by
  obtain ⟨A, _, h, _⟩ := from_slice_spec (xof := xof) Witness.rfcKey.2
  exact ⟨_, h, .from_secret (s := ⟨Witness.rfcKey⟩) h⟩

/-! ### Serialization -/

theorem hexDigit_isDigit : ∀ v : Fin 16, IsDigit (hexDigit v.val) v.val := by decide +kernel

theorem hexEncode_hexOf : ∀ b : List Byte, HexOf (hexEncode b) b
  | [] => .nil
  | x :: xs => by
    have hx := x.isLt
    exact .cons (hexDigit_isDigit ⟨x.toNat / 16, by omega⟩) (hexDigit_isDigit ⟨x.toNat % 16, by omega⟩) (hexEncode_hexOf xs)

/-- C24. Keys survive serialization in human-readable formats, and other formats are refused. -/
theorem C24_serde {ε : Type} (xof : Xof) :
    (∀ k, Obtained xof k → SigningKey.deserialize (ε := ε) xof ⟨true, .ok k.serialize⟩ = .ok (.ok k)) ∧
    (∀ k : SecretKey, SecretKey.deserialize (ε := ε) ⟨true, .ok k.serialize⟩ = .ok (.ok k)) ∧
    (∀ k : VerifyingKey, VerifyingKey.deserialize (ε := ε) ⟨true, .ok k.serialize⟩ = .ok (.ok k)) ∧
    (∀ d : Deserializer ε, d.is_human_readable = false →
      SigningKey.deserialize xof d = .ok (.error .expectedString) ∧ SecretKey.deserialize d = .ok (.error .expectedString) ∧
      VerifyingKey.deserialize d = .ok (.error .expectedString)) := by
  have hh : ∀ a : Arr Byte 57, hexToArr 57 (hexEncode a.1) = .ok a := fun a => (hexToArr_iff 57 _ a).mpr (hexEncode_hexOf a.1)
  refine ⟨fun k h => ?_, fun k => ?_, fun k => ?_, fun d h => ?_⟩
  · have hd := C20_verifying_key xof k h
    have e : SigningKey.from_str xof k.serialize = .ok k := by
      rw [SigningKey.from_str, hex_to_private_key, SigningKey.serialize, hh, bind_ok]
      rw [show k.to_bytes = k.secret_key.key from rfl] at hd
      rw [hd, bind_ok]
      rfl
    simp only [SigningKey.deserialize, deserializeWith, if_pos, e, bind_ok]
    rfl
  · have e : SecretKey.from_str k.serialize = .ok k := by
      rw [SecretKey.from_str, hex_to_private_key, SecretKey.serialize, hh, bind_ok]
      rfl
    simp only [SecretKey.deserialize, deserializeWith, if_pos, e, bind_ok]
    rfl
  · have e : VerifyingKey.from_str k.serialize = .ok k := by
      rw [VerifyingKey.from_str, hex_to_private_key, VerifyingKey.serialize, hh, bind_ok]
      rfl
    simp only [VerifyingKey.deserialize, deserializeWith, if_pos, e, bind_ok]
    rfl
  · simp only [SigningKey.deserialize, SecretKey.deserialize, VerifyingKey.deserialize, deserializeWith, h]
    exact ⟨rfl, rfl, rfl⟩

/-- What a human-readable deserializer can do to the caller: return the error of the format, return a key, or panic, the last exactly if
the string does not spell 57 bytes. -/
theorem C24_deserialize_cases {ε : Type} (xof : Xof) (r : Except ε (List Byte)) :
    (∀ e, r = .error e → SigningKey.deserialize xof ⟨true, r⟩ = .ok (.error (.format e))) ∧
    (∀ s b, r = .ok s → b.length = 57 → HexOf s b → ∃ k, SigningKey.deserialize xof ⟨true, r⟩ = .ok (.ok k) ∧ k.to_bytes.1 = b) ∧
    (∀ s, r = .ok s → (¬ ∃ b, b.length = 57 ∧ HexOf s b) → SigningKey.deserialize xof ⟨true, r⟩ = .error .expect) := by
  refine ⟨?_, ?_, ?_⟩
  · rintro e rfl
    rfl
  · rintro s b rfl hb hs
    obtain ⟨k, h1, h2, h3, _⟩ := C21_constructors_agree xof b s hb hs
    refine ⟨k, ?_, ?_⟩
    · simp only [SigningKey.deserialize, deserializeWith, if_pos, h3, bind_ok]
      rfl
    · exact (C23_byte_roundtrip xof).1 b k h2
  · rintro s rfl hs
    have := ((C25_parsers s).2.2.2.2.2.1 hs).2.2.2 xof
    simp only [SigningKey.deserialize, deserializeWith, if_pos, this, bind_err]

example (xof : Xof) : SigningKey.deserialize (ε := Unit) xof ⟨true, .ok [0x7a]⟩ = .error .expect := by
  refine (C24_deserialize_cases xof _).2.2 [0x7a] rfl ?_
  rintro ⟨b, hb, hs⟩
  have := hs.length
  rw [hb] at this
  simp at this

/-! ### Signing prehashes -/

/-- C26. The layout of the result of `sign_prehash`. -/
theorem C26_prehash_layout (xof : Xof) (k : SigningKey) (h : List Byte) :
    ∃ sig S, ed448_sign xof k.to_bytes h = .ok sig ∧ k.sign_prehash xof h = .ok (.ok S) ∧ S.as_slice.length = 171 ∧
      S.as_slice = sig.1 ++ k.get_verifying_key.as_bytes := by
  obtain ⟨sig, s1, _⟩ := sign_spec xof k.to_bytes h
  refine ⟨sig, ⟨⟨sig.1 ++ k.verifying_key.key.1, by simp [sig.2, k.verifying_key.key.2]⟩⟩, s1, ?_, ?_, rfl⟩
  · rw [SigningKey.sign_prehash, show k.secret_key.key = k.to_bytes from rfl, s1, bind_ok]
    rfl
  · simp [Signature.as_slice, sig.2, k.verifying_key.key.2]

/-- C27, partial. A result of `sign_prehash` verifies under the key it carries, both with its first 114 bytes and with all 171 bytes as signature, if the
decoder accepts the key and the first 57 bytes. Missing: the unconditional claim, which is false for the same keys as C05. -/
theorem C27_prehash_verifies_partial (xof : Xof) (k : SigningKey) (hk : Obtained xof k) (h : List Byte) :
    ∃ S, k.sign_prehash xof h = .ok (.ok S) ∧
      (Accepted (S.as_slice.drop 114) → Accepted (S.as_slice.take 57) →
        ed448_verify xof (S.as_slice.drop 114) (S.as_slice.take 114) h = .ok (.ok true) ∧
        ed448_verify xof (S.as_slice.drop 114) S.as_slice h = .ok (.ok true)) ∧
      (¬ Accepted (S.as_slice.drop 114) → ed448_verify xof (S.as_slice.drop 114) (S.as_slice.take 114) h = .ok (.error .DecodePubkeyError)) := by
  obtain ⟨sig, S, s1, s2, s3, s4⟩ := C26_prehash_layout xof k h
  obtain ⟨A, sig', a1, a2, a3, a4, a5⟩ := C05_roundtrip_partial xof k.to_bytes h
  rw [s1] at a2
  injection a2 with a2
  subst a2
  rw [C20_verifying_key xof k hk] at a1
  injection a1 with a1
  subst a1
  have e1 : S.as_slice.drop 114 = k.get_verifying_key.key.1 := by rw [s4, List.drop_left' sig.2]; rfl
  have e2 : S.as_slice.take 114 = sig.1 := by rw [s4, List.take_left' sig.2]
  have e3 : S.as_slice.take 57 = sig.1.take 57 := by rw [s4, List.take_append_of_le_length (by rw [sig.2]; norm_num)]
  refine ⟨S, s2, ?_, ?_⟩
  · rw [e1, e2, e3]
    intro h1 h2
    refine ⟨a3 h1 h2, ?_⟩
    rw [s4, C10_trailing xof _ _ _ _ sig.2, a3 h1 h2]
    obtain ⟨sig', t1, t2⟩ := sign_spec xof k.to_bytes h
    rw [s1] at t1
    injection t1 with t1
    intro hz
    have := (sign_eq_parts xof (keyScalar xof k.to_bytes.1) (keySeed xof k.to_bytes.1) h).1
    rw [← t2, ← t1, hz] at this
    exact encode_smul_B_ne_zero _ (this.symm.trans (by simp))
  · rw [e1, e2]
    exact a4

/-! ### Random keys, determinism -/

/-- C44. Key generation asks the generator once, for 57 bytes, and uses them unchanged as the secret key. -/
theorem C44_random {σ : Type} (xof : Xof) (rng : Rng σ) (st : σ) :
    ed448_generate_key rng st = rng.fill_bytes 57 st ∧
    ∃ k, SigningKey.random xof rng st = .ok (k, (rng.fill_bytes 57 st).2) ∧ k.to_bytes = (rng.fill_bytes 57 st).1 ∧
      ed448_derive_public xof (rng.fill_bytes 57 st).1 = .ok k.get_verifying_key.key := by
  refine ⟨rfl, ?_⟩
  obtain ⟨A, h1, h2, _⟩ := from_slice_spec (xof := xof) (rng.fill_bytes 57 st).1.2
  refine ⟨⟨⟨(rng.fill_bytes 57 st).1⟩, ⟨A⟩⟩, ?_, rfl, h1⟩
  rw [SigningKey.random]
  rw [h2, bind_ok]
  rfl

/-- C45. Signing depends on the bytes of the key and the message only, not on how the key was made. -/
theorem C45_deterministic (xof : Xof) (k k' : SigningKey) (hk : Obtained xof k) (hk' : Obtained xof k') (h : k.to_bytes = k'.to_bytes) (m : List Byte) :
    k = k' ∧ k.sign_prehash xof m = k'.sign_prehash xof m := by
  have e : k = k' := by
    have h1 := C20_verifying_key xof k hk
    have h2 := C20_verifying_key xof k' hk'
    rw [h, h2] at h1
    injection h1 with h1
    obtain ⟨⟨a⟩, ⟨b⟩⟩ := k
    obtain ⟨⟨a'⟩, ⟨b'⟩⟩ := k'
    have : a = a' := h
    have : b' = b := h1
    subst_vars
    rfl
  exact ⟨e, by rw [e]⟩

end Ed448
