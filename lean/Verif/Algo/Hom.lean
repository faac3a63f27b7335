import Verif.Algo.Refine
import Verif.Algo.Run

/-!
# The field, and the naturals modulo p, as types of numbers
-/

namespace Ed448.Alg

open Ed448

noncomputable instance : Num F where
  nat n := (n : F)
  val a := a.val
  strict a k := k a

/-- The field stands for itself. -/
noncomputable def homF : Hom F where
  c a := a
  add _ _ := rfl
  sub _ _ := rfl
  mul _ _ := rfl
  nat _ := rfl
  val _ := rfl
  strict _ _ := rfl

theorem cast_modN (a : ℕ) : ((Nat.mod a pN : ℕ) : F) = a := by
  have h : ((a % pN : ℕ) : F) = a := by
    rw [pN_eq]
    exact ZMod.natCast_mod a p
  exact h

theorem sub_modN (a b : ℕ) : ((Nat.mod (Nat.add a (Nat.sub pN (Nat.mod b pN))) pN : ℕ) : F) = (a : F) - b := by
  have h : Nat.mod b pN ≤ pN := (Nat.mod_lt b (by decide +kernel)).le
  refine (cast_modN _).trans ?_
  show ((a + (pN - Nat.mod b pN) : ℕ) : F) = _
  rw [Nat.cast_add, Nat.cast_sub h, cast_modN, pN_eq]
  have h0 : ((p : ℕ) : F) = 0 := ZMod.natCast_self p
  rw [h0, zero_sub, ← sub_eq_add_neg]

theorem val_modN (a : ℕ) : Nat.mod a pN = (a : F).val := by
  rw [ZMod.val_natCast, ← pN_eq]
  rfl

/-- A natural number stands for its class modulo p. -/
noncomputable def homZ : Hom Zp where
  c := fun a : ℕ => (a : F)
  add a b := (cast_modN _).trans (Nat.cast_add (R := F) a b)
  sub := sub_modN
  mul a b := (cast_modN _).trans (Nat.cast_mul (α := F) a b)
  nat n := cast_modN n
  val := val_modN
  strict a k := by
    cases a <;> rfl

end Ed448.Alg
