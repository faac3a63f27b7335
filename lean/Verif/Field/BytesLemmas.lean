import Verif.Spec.Bytes
import Mathlib.Tactic.Ring
import Mathlib.Algebra.Order.Ring.Nat

/-! # Lemmas about little-endian byte strings -/

namespace Ed448

@[simp] theorem leBytes_length : ∀ k v, (leBytes k v).length = k
  | 0, _ => rfl
  | k + 1, v => by simp [leBytes, leBytes_length k]

theorem leNat_leBytes : ∀ k v, leNat (leBytes k v) = v % 256 ^ k
  | 0, v => by simp [leBytes, leNat, Nat.mod_one]
  | k + 1, v => by
    rw [leBytes, leNat, leNat_leBytes k, BitVec.toNat_ofNat, pow_succ' 256 k, Nat.mod_mul (a := 256)]

theorem leNat_lt : ∀ l : List (BitVec 8), leNat l < 256 ^ l.length
  | [] => by simp [leNat]
  | b :: bs => by
    have := leNat_lt bs
    have hb := b.isLt
    simp only [leNat, List.length_cons, pow_succ']
    omega

theorem leBytes_leNat : ∀ l : List (BitVec 8), leBytes l.length (leNat l) = l
  | [] => rfl
  | b :: bs => by
    have hb := b.isLt
    simp only [leNat, List.length_cons, leBytes]
    congr 1
    · apply BitVec.eq_of_toNat_eq
      rw [BitVec.toNat_ofNat]
      omega
    · rw [show (b.toNat + 256 * leNat bs) / 256 = leNat bs by omega, leBytes_leNat bs]

theorem leNat_inj {l l' : List (BitVec 8)} (h : l.length = l'.length) (hv : leNat l = leNat l') :
    l = l' := by
  rw [← leBytes_leNat l, ← leBytes_leNat l', h, hv]

theorem leNat_append : ∀ l l' : List (BitVec 8), leNat (l ++ l') = leNat l + 256 ^ l.length * leNat l'
  | [], l' => by simp [leNat]
  | b :: bs, l' => by
    simp only [List.cons_append, leNat, List.length_cons, pow_succ', leNat_append bs]
    ring

theorem leBytes_append : ∀ j k v, leBytes (j + k) v = leBytes j v ++ leBytes k (v / 256 ^ j)
  | 0, k, v => by simp [leBytes]
  | j + 1, k, v => by
    rw [show j + 1 + k = (j + k) + 1 by omega, leBytes, leBytes, leBytes_append j, List.cons_append,
      Nat.div_div_eq_div_mul, pow_succ']

theorem leNat_replicate_zero : ∀ k, leNat (List.replicate k 0#8) = 0
  | 0 => rfl
  | k + 1 => by simp [List.replicate_succ, leNat, leNat_replicate_zero k]

end Ed448
