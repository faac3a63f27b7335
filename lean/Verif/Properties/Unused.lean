import Verif.Field.Unused
import Verif.Scalar.Words
import Verif.Spec.Field

/-!
# C63: the unused strict decoder of field elements tests the wrong half of its input
-/

set_option exponentiation.threshold 1000

namespace Ed448

open Unused

/-- C63. For every 56-byte string, with `v` its value as a little-endian number: the decoder does not panic, its limbs are
below `2^28` and represent `v`, and it accepts exactly when the low 224 bits of `v` are less than `2^224 - 2^112 - 1`.
The variant that must succeed panics on the others. -/
theorem C63_strict_decoder (inp : Arr Byte 56) :
    ∃ n : BN, n.val = leNat inp.1 ∧ (∀ x ∈ n.toList, x.toNat < 2 ^ 28) ∧
      deserialize inp = .ok (n, decide (leNat inp.1 % 2 ^ 224 < 2 ^ 224 - 2 ^ 112 - 1)) ∧
      must_deserialize inp = if leNat inp.1 % 2 ^ 224 < 2 ^ 224 - 2 ^ 112 - 1 then .ok n else .error .explicit := by
  obtain ⟨n, h1, h2, h3⟩ := deserialize_spec inp
  refine ⟨n, h1, h2, h3, ?_⟩
  unfold must_deserialize
  rw [h3]
  show (if _ then _ else _) = _
  by_cases h : leNat inp.1 % 2 ^ 224 < 2 ^ 224 - 2 ^ 112 - 1
  · rw [if_pos h, if_neg (by simpa using h)]
    rfl
  · rw [if_neg h, if_pos (by simpa using h)]

/-- 56 bytes, little-endian. -/
def strictInput (v : ℕ) : Arr Byte 56 := ⟨leBytes 56 v, leBytes_length ..⟩

theorem strictInput_val {v : ℕ} (h : v < 2 ^ 448) : leNat (strictInput v).1 = v := by
  rw [strictInput, leNat_leBytes]
  exact Nat.mod_eq_of_lt (by simpa [← pow_mul] using h)

/-- C63: strict decoding means to accept exactly the numbers below `p`. The decoder accepts some number that is not below
`p`, and refuses some number below `p`. -/
theorem C63_not_strict :
    (∃ inp : Arr Byte 56, p ≤ leNat inp.1 ∧ ∃ n, deserialize inp = .ok (n, true)) ∧
    (∃ inp : Arr Byte 56, leNat inp.1 < p ∧ ∃ n, deserialize inp = .ok (n, false)) := by
  have hp : p = 2 ^ 448 - 2 ^ 224 - 1 := by unfold p; norm_num
  constructor
  · refine ⟨strictInput (2 ^ 448 - 2 ^ 224), ?_, ?_⟩
    · rw [strictInput_val (by norm_num), hp]
      norm_num
    · obtain ⟨n, -, -, h, -⟩ := C63_strict_decoder (strictInput (2 ^ 448 - 2 ^ 224))
      rw [strictInput_val (by norm_num)] at h
      exact ⟨n, h.trans (by norm_num)⟩
  · refine ⟨strictInput (2 ^ 224 - 2 ^ 112), ?_, ?_⟩
    · rw [strictInput_val (by norm_num), hp]
      norm_num
    · obtain ⟨n, -, -, h, -⟩ := C63_strict_decoder (strictInput (2 ^ 224 - 2 ^ 112))
      rw [strictInput_val (by norm_num)] at h
      exact ⟨n, h.trans (by norm_num)⟩

/-- The vectors of the unit test `test_deserialize`, src/bignumber.rs:668-712: one, a random string, and `p`. -/
example : deserialize (strictInput 1) = .ok (BIG_ONE, true) := by decide +kernel

example : deserialize ⟨[
    0xf5, 0x81, 0x74, 0xd5, 0x7a, 0x33, 0x72, 0x36, 0x3c, 0x0d, 0x9f, 0xcf, 0xaa, 0x3d,
    0xc1, 0x8b, 0x1e, 0xff, 0x7e, 0x89, 0xbf, 0x76, 0x78, 0x63, 0x65, 0x80, 0xd1, 0x7d,
    0xd8, 0x4a, 0x87, 0x3b, 0x14, 0xb9, 0xc0, 0xe1, 0x68, 0x0b, 0xbd, 0xc8, 0x76, 0x47,
    0xf3, 0xc3, 0x82, 0x90, 0x2d, 0x2f, 0x58, 0xd2, 0x75, 0x4b, 0x39, 0xbc, 0xa8, 0x74], rfl⟩ =
    .ok (⟨0x57481f5, 0x72337ad, 0xf0d3c36, 0x3daacf9, 0xf1e8bc1, 0xbf897ef, 0x5637876,
      0x7dd1806, 0xb874ad8, 0xc0b9143, 0xd0b68e1, 0x4776c8b, 0x082c3f3, 0x582f2d9,
      0x94b75d2, 0x74a8bc3⟩, true) := by decide +kernel

example : (deserialize (strictInput p)).map Prod.snd = .ok false := by decide +kernel

/-! ## Helpers for scalars -/

/-- C36, the two helpers that only tests call: a copy has the same words, and a scalar made from a word stands for this word. -/
theorem C36_copy_set (a : Scalar) (w : W32) : (copy a).1 = a.1 ∧ (copy a).val = a.val ∧ (set w).val = w.toNat := by
  refine ⟨rfl, rfl, ?_⟩
  have h : ∀ n, wordsNat (List.replicate n 0) = 0 := by
    intro n
    induction n with
    | zero => rfl
    | succ n ih => rw [List.replicate_succ, wordsNat, ih]; rfl
  show wordsNat (w :: List.replicate 13 0) = w.toNat
  rw [wordsNat, h, Nat.mul_zero, Nat.add_zero]

/-- A copy of the largest scalar with one word. -/
example : (copy (set 0xffffffff)).val = 2 ^ 32 - 1 := by
  rw [(C36_copy_set (set 0xffffffff) 0).2.1, (C36_copy_set SCALAR_ZERO 0xffffffff).2.2]
  rfl

end Ed448
