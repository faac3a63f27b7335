import Verif.Checked.Api
import Verif.Model.Errors
import Verif.Properties.Api

/-!
# Checked builds, serialized strings, error messages: C51, C52, C53
-/

set_option exponentiation.threshold 1000

namespace Ed448

/-! ### C51 -/

/-- C51, first part. The code with every index, slice length and non-wrapping operation checked (`Chk`) derives and signs without failing a
check, and the results are those of RFC 8032 (or, for direct-secret keys, those of C03 and C04). -/
theorem C51_sign (xof : Xof) (k m : List Byte) (hk : k.length = 57) :
    ∃ A sig, Chk.ed448_derive_public xof k = .ok A ∧ Chk.ed448_sign xof k m = .ok sig ∧
      (signBit k = 0 → A = RFC.publicKey xof k ∧ sig = RFC.sign xof k m) ∧
      (signBit k = 1 → A = encodePoint (RFC.secretScalar k • B) ∧
        sig = RFC.signWith xof (RFC.secretScalar k) (leBytes 57 (RFC.secretScalar k)) m) := by
  have e1 := Chk.ed448_derive_public_eq xof ⟨k, hk⟩
  have e2 := Chk.ed448_sign_eq xof ⟨k, hk⟩ m
  have hb := signBit_lt k
  rcases (by omega : signBit k = 0 ∨ signBit k = 1) with h | h
  · obtain ⟨A, a1, a2⟩ := C01_derive_rfc xof ⟨k, hk⟩ h
    obtain ⟨sig, s1, s2⟩ := C02_sign_rfc xof ⟨k, hk⟩ m h
    rw [a1, bind_ok'] at e1
    rw [s1, bind_ok'] at e2
    exact ⟨A.1, sig.1, e1, e2, fun _ => ⟨a2, s2⟩, fun h' => by omega⟩
  · obtain ⟨A, a1, a2⟩ := C03_derive_direct xof ⟨k, hk⟩ h
    obtain ⟨sig, s1, s2⟩ := C04_sign_direct xof ⟨k, hk⟩ m h
    rw [a1, bind_ok'] at e1
    rw [s1, bind_ok'] at e2
    exact ⟨A.1, sig.1, e1, e2, fun h' => by omega, fun _ => ⟨a2, s2⟩⟩

example : Witness.key0.1.length = 57 ∧ signBit Witness.key0.1 = 1 ∧ Witness.rfcKey.1.length = 57 ∧ signBit Witness.rfcKey.1 = 0 :=
  ⟨Witness.key0.2, Witness.key0_sign, Witness.rfcKey.2, Witness.rfcKey_sign⟩

/-- C51, second part. In verification the only check that can fail is the one of the length of the signature, and the result is not changed by the
checks. -/
theorem C51_verify (xof : Xof) (pk sig m : List Byte) :
    Chk.ed448_verify xof pk sig m = ed448_verify xof pk sig m ∧
    Chk.ed448_verify_with_error xof pk sig m = ed448_verify_with_error xof pk sig m ∧
    ∀ why, Chk.ed448_verify xof pk sig m = .error why ↔ pk ≠ List.replicate 57 0 ∧ Accepted pk ∧ sig.length < 114 ∧ why = .bounds := by
  refine ⟨Chk.ed448_verify_eq xof pk sig m, Chk.ed448_verify_with_error_eq xof pk sig m, fun why => ?_⟩
  rw [Chk.ed448_verify_eq]
  exact (C09_panic_iff xof pk sig m why).1

/-! ### C52 -/

/-- The character with code `c` is not an upper-case letter `A` to `F`. -/
def NotUpper (c : Byte) : Prop := ¬ ('A'.toNat ≤ c.toNat ∧ c.toNat ≤ 'F'.toNat)

instance (c : Byte) : Decidable (NotUpper c) := inferInstanceAs (Decidable (¬ _))

theorem hexDigit_notUpper : ∀ v : Fin 16, NotUpper (hexDigit v.1) := by decide

theorem hexEncode_notUpper : ∀ b : List Byte, ∀ c ∈ hexEncode b, NotUpper c
  | [], c, h => by simp [hexEncode] at h
  | x :: xs, c, h => by
    have := x.isLt
    rcases List.mem_cons.1 h with rfl | h
    · exact hexDigit_notUpper ⟨x.toNat / 16, by omega⟩
    · rcases List.mem_cons.1 h with rfl | h
      · exact hexDigit_notUpper ⟨x.toNat % 16, by omega⟩
      · exact hexEncode_notUpper xs c h

theorem isDigit_unique {c c' : Byte} {v : ℕ} (h : IsDigit c v) (h' : IsDigit c' v) (hc : NotUpper c) (hc' : NotUpper c') : c = c' := by
  apply BitVec.eq_of_toNat_eq
  unfold NotUpper at hc hc'
  unfold IsDigit at h h'
  have e1 : 'A'.toNat = 65 := rfl
  have e2 : 'F'.toNat = 70 := rfl
  have e3 : 'a'.toNat = 97 := rfl
  have e4 : '0'.toNat = 48 := rfl
  omega

/-- There is one lower-case spelling of a byte string. -/
theorem hexOf_unique {s s' b : List Byte} (h : HexOf s b) (h' : HexOf s' b) (hs : ∀ c ∈ s, NotUpper c) (hs' : ∀ c ∈ s', NotUpper c) : s = s' := by
  induction h generalizing s' with
  | nil => cases h'; rfl
  | @cons c c' x t bs h1 h2 h3 ih =>
    cases h' with
    | @cons d d' _ t' _ g1 g2 g3 =>
      rw [isDigit_unique h1 g1 (hs c (by simp)) (hs' d (by simp)), isDigit_unique h2 g2 (hs c' (by simp)) (hs' d' (by simp)),
        ih g3 (fun y hy => hs y (by simp [hy])) (fun y hy => hs' y (by simp [hy]))]

/-- C52. A key is serialized as the lower-case hexadecimal spelling of its 57 bytes, 114 characters long (for a signing key, of its secret bytes), and
no other string of lower-case digits spells the same key. -/
theorem C52_serialized_form :
    (∀ k : SigningKey, HexOf k.serialize k.to_bytes.1 ∧ k.serialize.length = 114 ∧ ∀ c ∈ k.serialize, NotUpper c) ∧
    (∀ k : SecretKey, HexOf k.serialize k.key.1 ∧ k.serialize.length = 114 ∧ ∀ c ∈ k.serialize, NotUpper c) ∧
    (∀ k : VerifyingKey, HexOf k.serialize k.as_bytes ∧ k.serialize.length = 114 ∧ ∀ c ∈ k.serialize, NotUpper c) ∧
    (∀ (k : VerifyingKey) (s : List Byte), HexOf s k.as_bytes → (∀ c ∈ s, NotUpper c) → s = k.serialize) := by
  have key : ∀ a : Arr Byte 57, HexOf (hexEncode a.1) a.1 ∧ (hexEncode a.1).length = 114 ∧ ∀ c ∈ hexEncode a.1, NotUpper c := fun a =>
    ⟨hexEncode_hexOf a.1, by rw [(hexEncode_hexOf a.1).length, a.2], hexEncode_notUpper a.1⟩
  exact ⟨fun k => key k.secret_key.key, fun k => key k.key, fun k => key k.key,
    fun k s h h' => hexOf_unique h (hexEncode_hexOf k.key.1) h' (hexEncode_notUpper k.key.1)⟩

/-- Ten, 0xab and 0xff in lower case. -/
example : hexEncode [0x0a, 0xab, 0xff] = "0aabff".toList.map (fun c => BitVec.ofNat 8 c.toNat) := by decide

/-! ### C53 -/

/-- The number that a string of decimal digits spells. -/
def decimalValue (l : List Char) : ℕ := l.foldl (fun a c => 10 * a + (c.toNat - '0'.toNat)) 0

theorem digit_char {d : ℕ} (h : d < 10) : (Char.ofNat (48 + d)).toNat = 48 + d ∧ (Char.ofNat (48 + d)).isDigit = true := by
  interval_cases d <;> decide

theorem displayNat_value (n : ℕ) : decimalValue (displayNat n) = n ∧ ∀ c ∈ displayNat n, c.isDigit = true := by
  induction n using Nat.strong_induction_on with
  | _ n ih =>
    rw [displayNat]
    split
    · next h =>
      obtain ⟨h1, h2⟩ := digit_char h
      refine ⟨?_, by simpa using h2⟩
      simp only [decimalValue, List.foldl_cons, List.foldl_nil, h1]
      rw [show '0'.toNat = 48 from rfl]
      omega
    · next h =>
      obtain ⟨h1, h2⟩ := digit_char (Nat.mod_lt n (by norm_num : 10 > 0))
      obtain ⟨i1, i2⟩ := ih (n / 10) (by omega)
      refine ⟨?_, ?_⟩
      · unfold decimalValue at i1 ⊢
        rw [List.foldl_append, i1]
        simp only [List.foldl_cons, List.foldl_nil, h1]
        rw [show '0'.toNat = 48 from rfl]
        omega
      · intro c hc
        rcases List.mem_append.1 hc with hc | hc
        · exact i2 c hc
        · rw [List.mem_singleton.1 hc]
          exact h2

/-- The fixed beginning of the message for a private key of the wrong length. -/
def lengthMessage : String := "Invalid PrivateKey Length, expected: 57 bytes, got: "

theorem lengthMessage_length : lengthMessage.toList.length = 52 := by decide +kernel

attribute [irreducible] lengthMessage

theorem display_length (n : ℕ) : (Err.InvalidPrivKeyLengthErrro n).display = lengthMessage ++ String.ofList (displayNat n) ++ " bytes" := by
  unfold lengthMessage Err.display
  rfl

theorem display_long (n : ℕ) (s : String) (hs : s.toList.length ≤ 40) : (Err.InvalidPrivKeyLengthErrro n).display ≠ s := by
  intro e
  have := congrArg (fun s => s.toList.length) e
  rw [display_length] at this
  simp only [String.toList_append, List.length_append, lengthMessage_length] at this
  omega

/-- C53. Error messages identify the error: two errors with the same message are equal, and the message for a private key of the wrong length contains
that length in decimal. -/
theorem C53_messages :
    (∀ e e' : Err, e.display = e'.display → e = e') ∧
    (∀ xof s, s.length ≠ 57 → ∃ e d, SigningKey.from_bytes xof s = .ok (.error e) ∧ (∀ c ∈ d, c.isDigit = true) ∧ decimalValue d = s.length ∧
      e.display = "Invalid PrivateKey Length, expected: 57 bytes, got: " ++ String.ofList d ++ " bytes") := by
  refine ⟨?_, fun xof s h => ⟨.InvalidPrivKeyLengthErrro s.length, displayNat s.length, ?_, (displayNat_value s.length).2, (displayNat_value s.length).1, rfl⟩⟩
  · intro e e' h
    cases e <;> cases e' <;> first
      | rfl
      | (exact absurd h (by unfold Err.display; decide))
      | (exact absurd h (display_long _ _ (by decide +kernel)))
      | (exact absurd h.symm (display_long _ _ (by decide +kernel)))
      | skip
    next n n' =>
      rw [display_length, display_length] at h
      have h1 := congrArg String.toList h
      simp only [String.toList_append, String.toList_ofList] at h1
      have h2 := List.append_cancel_left (List.append_cancel_right h1)
      have := congrArg decimalValue h2
      rw [(displayNat_value n).1, (displayNat_value n').1] at this
      rw [this]
  · rw [SigningKey.from_bytes, if_pos h]
    rfl

example : (Err.InvalidPrivKeyLengthErrro 570).display = "Invalid PrivateKey Length, expected: 57 bytes, got: 570 bytes" := by
  have : displayNat 570 = ['5', '7', '0'] := by simp [displayNat]
  rw [show (Err.InvalidPrivKeyLengthErrro 570).display = "Invalid PrivateKey Length, expected: 57 bytes, got: " ++ String.ofList (displayNat 570) ++ " bytes" from rfl, this]
  decide +kernel

end Ed448
