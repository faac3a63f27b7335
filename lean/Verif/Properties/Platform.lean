import Verif.Checked.Width
import Verif.Properties.Keys

/-!
# C106: the width of `usize` does not matter
-/

namespace Ed448

/-- C106. On platforms with any two widths of `usize` from 16 bits on, deriving, signing and verifying give the same results: the same bytes, errors and panics. -/
theorem C106_platforms (u v : ℕ) (hu : 16 ≤ u) (hv : 16 ≤ v) (xof : Xof) (k : Arr Byte 57) (pk sig m : List Byte) :
    Platform.ed448_derive_public u xof k = Platform.ed448_derive_public v xof k ∧
    Platform.ed448_sign u xof k m = Platform.ed448_sign v xof k m ∧
    Platform.ed448_verify u xof pk sig m = Platform.ed448_verify v xof pk sig m ∧
    Platform.ed448_verify_with_error u xof pk sig m = Platform.ed448_verify_with_error v xof pk sig m := by
  rw [Platform.derive_eq hu, Platform.derive_eq hv, Platform.sign_eq hu, Platform.sign_eq hv, Platform.verify_eq hu, Platform.verify_eq hv,
    Platform.verify_with_error_eq hu, Platform.verify_with_error_eq hv]
  exact ⟨rfl, rfl, rfl, rfl⟩

/-- C106. They are the results that all other theorems are about. -/
theorem C106_same (u : ℕ) (hu : 16 ≤ u) (xof : Xof) :
    Platform.ed448_derive_public u xof = ed448_derive_public xof ∧ Platform.ed448_sign u xof = ed448_sign xof ∧
    Platform.ed448_verify u xof = ed448_verify xof ∧ Platform.ed448_verify_with_error u xof = ed448_verify_with_error xof ∧
    Platform.secret_to_public u = secret_to_public ∧ Platform.sign_by_private u xof = sign_by_private xof ∧
    Platform.sign_with_secret_and_nonce u xof = sign_with_secret_and_nonce xof := by
  refine ⟨?_, ?_, ?_, ?_, ?_, ?_, ?_⟩
  · exact funext fun k => Platform.derive_eq hu xof k
  · exact funext fun k => funext fun m => Platform.sign_eq hu xof k m
  · exact funext fun k => funext fun s => funext fun m => Platform.verify_eq hu xof k s m
  · exact funext fun k => funext fun s => funext fun m => Platform.verify_with_error_eq hu xof k s m
  · exact funext fun k => Platform.secret_to_public_eq hu k
  · exact funext fun k => funext fun m => Platform.sign_by_private_eq hu xof k m
  · exact funext fun s => funext fun n => funext fun m => Platform.sign_with_eq hu xof s n m

/-- The platforms of Rust. -/
example : 16 ≤ 16 ∧ 16 ≤ 32 ∧ 16 ≤ 64 := by decide

/-! ### With eight bits the claim would be wrong -/

namespace Platform

theorem low_word {u : ℕ} (hu : u ≤ 8) (bit : BitVec u) : (bit / 32#u).toNat < 8 := by
  have h := bit.isLt
  rw [BitVec.toNat_udiv, BitVec.toNat_ofNat]
  interval_cases u <;> norm_num at h ⊢ <;> omega

theorem idx_take {α : Type} {l l' : List α} {n : ℕ} (hn : n < 8) (h : l.take 8 = l'.take 8) : idx l n = idx l' n := by
  have e : ∀ l : List α, (l.take 8)[n]? = l[n]? := fun l => List.getElem?_take_of_lt hn
  rw [idx, idx, ← e l, ← e l', h]

theorem combTab_low {u : ℕ} (hu : u ≤ 8) {s s' : List W32} (h : s.take 8 = s'.take 8) (i j : ℕ) : ∀ ks tab, combTab u s i j ks tab = combTab u s' i j ks tab
  | [], _ => rfl
  | k :: ks, tab => by
    rw [combTab, combTab]
    simp only [combTab_low hu h i j ks, idx_take (low_word hu _) h]

theorem combInner_low {u : ℕ} (hu : u ≤ 8) {s s' : List W32} (h : s.take 8 = s'.take 8) (i : ℕ) : ∀ js p, combInner u s i js p = combInner u s' i js p
  | [], _ => rfl
  | j :: js, p => by
    rw [combInner, combInner, combSelect, combSelect, combTab_low hu h]
    simp only [combInner_low hu h i js]

theorem combOuter_low {u : ℕ} (hu : u ≤ 8) {s s' : List W32} (h : s.take 8 = s'.take 8) : ∀ i p, combOuter u s i p = combOuter u s' i p
  | 0, _ => rfl
  | i + 1, p => by
    rw [combOuter, combOuter]
    simp only [combInner_low hu h, combOuter_low hu h i]

end Platform

/-- Two keys whose scalars differ in a high bit only. -/
def Witness.highKey (b : Byte) : Arr Byte 57 := ⟨List.replicate 54 0 ++ [b, 0, 0x80], by simp⟩

theorem Witness.highKey_low : (halve (scalarAdd (halve (halve (decode_long (clamp (highKey 0)).1))) scalar_adjustment)).1.take 8 =
    (halve (scalarAdd (halve (halve (decode_long (clamp (highKey 1)).1))) scalar_adjustment)).1.take 8 := by decide +kernel

/-- C106. With a `usize` of eight bits or fewer some public keys would be different ones: the high words of the scalar would not be read. -/
theorem C106_narrow (u : ℕ) (hu : u ≤ 8) (xof : Xof) : ∃ k, Platform.ed448_derive_public u xof k ≠ ed448_derive_public xof k := by
  by_contra hcon
  push Not at hcon
  have h0 := hcon (Witness.highKey 0)
  have h1 := hcon (Witness.highKey 1)
  have hs0 : signBit (Witness.highKey 0).1 = 1 := by decide +kernel
  have hs1 : signBit (Witness.highKey 1).1 = 1 := by decide +kernel
  have ht0 : topBitClear (Witness.highKey 0) = false := by decide +kernel
  have ht1 : topBitClear (Witness.highKey 1) = false := by decide +kernel
  have e : Platform.ed448_derive_public u xof (Witness.highKey 0) = Platform.ed448_derive_public u xof (Witness.highKey 1) := by
    rw [Platform.ed448_derive_public, Platform.ed448_derive_public, ht0, ht1]
    simp only [Bool.false_eq_true, if_false, Platform.secret_to_public, Platform.point_by_secret, Platform.precomputed_scalar_mul]
    rw [Platform.combOuter_low hu Witness.highKey_low]
  rw [h0, h1, C47_direct_injective xof _ _ hs0 hs1] at e
  revert e
  decide +kernel

end Ed448
