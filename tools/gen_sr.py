L=[]
L.append('''import Verif.Field.MulW

/-!
# Strong reduction

`strong_reduce` computes the canonical representative.
-/

namespace Ed448

theorem ofInt_mask (s : ℤ) : ((BitVec.ofInt 32 s &&& RADIX_MASK).toNat : ℤ) = s % 2 ^ 28 := by
  rw [and_mask]
  push_cast
  rw [BitVec.toNat_ofInt]
  omega

theorem ofNat_mask (s : ℕ) : (BitVec.ofNat 32 s &&& RADIX_MASK).toNat = s % 2 ^ 28 := by
  rw [and_mask, BitVec.toNat_ofNat]
  omega

theorem srSub_spec (c : ℤ) (n : W32) (m : ℤ) :
    c + (n.toNat - m) = 2 ^ 28 * (srSub c n m).1 + ((srSub c n m).2.toNat : ℤ) ∧
      (srSub c n m).2.toNat < 2 ^ 28 := by
  simp only [srSub]
  have h := ofInt_mask (c + (n.toNat - m))
  constructor
  · rw [h]; omega
  · omega

theorem srAdd_spec (c : ℕ) (n : W32) (m : ℕ) :
    c + (n.toNat + m) = 2 ^ 28 * (srAdd c n m).1 + (srAdd c n m).2.toNat ∧
      (srAdd c n m).2.toNat < 2 ^ 28 := by
  simp only [srAdd]
  have h := ofNat_mask (c + (n.toNat + m))
  constructor
  · rw [h]; omega
  · omega

theorem BN.val_cast (n : BN) : (n.val : ℤ) = n.ev (2 ^ 28 : ℤ) := by
  simp only [BN.val, BN.ev, Nat.cast_add, Nat.cast_mul, Nat.cast_pow, Nat.cast_ofNat, Nat.cast_id]

set_option exponentiation.threshold 1000 in
theorem val_lt_of_Lt {n : BN} (h : n.Lt (2 ^ 28)) : n.val < 2 ^ 448 := by
  obtain ⟨h0, h1, h2, h3, h4, h5, h6, h7, h8, h9, h10, h11, h12, h13, h14, h15⟩ := h
  simp only [BN.val, BN.ev, Nat.cast_id]
  norm_num at *
  linarith

set_option exponentiation.threshold 1000 in
theorem val_lt_of_weak {n : BN} (h : n.Lt (2 ^ 28 + 16)) : n.val < 2 ^ 448 + 2 ^ 425 := by
  obtain ⟨h0, h1, h2, h3, h4, h5, h6, h7, h8, h9, h10, h11, h12, h13, h14, h15⟩ := h
  simp only [BN.val, BN.ev, Nat.cast_id]
  norm_num at *
  linarith
''')
def mod(i): return '0xffffffe' if i==8 else '0xfffffff'
L.append('''set_option exponentiation.threshold 1000 in
/-- The limbs of `strong_reduce` are the 28-bit digits of the canonical representative. -/
theorem strong_reduce_spec {n : BN} (h8 : n.l8.toNat < 2 ^ 32 - 16) :
    (strong_reduce n).toF = n.toF ∧ (strong_reduce n).val < p ∧ (strong_reduce n).Lt (2 ^ 28) := by
  obtain ⟨hwF, hwL⟩ := weak_reduce_spec n h8
  have hlt := val_lt_of_weak hwL
  rw [← hwF]
  unfold strong_reduce
  generalize weak_reduce n = v at *
  have hv := v.val_cast
  simp only [BN.ev] at hv''')
prev='(0 : ℤ)'
for i in range(16):
    L.append(f'''  have es{i} := srSub_spec {prev} v.l{i} {mod(i)}
  obtain ⟨s{i}, hs{i}⟩ : ∃ s, s = srSub {prev} v.l{i} {mod(i)} := ⟨_, rfl⟩
  simp only [← hs{i}] at es{i} ⊢''')
    prev=f's{i}.1'
SD0=' + '.join(f'(s{i}.2.toNat : ℤ) * (2 ^ 28) ^ {i}' for i in range(16))
L.append(f"""  have hp := p_eq
  have hdL : BN.Lt ⟨{', '.join(f's{i}.2' for i in range(16))}⟩ (2 ^ 28) :=
    ⟨{', '.join(f'es{i}.2' for i in range(16))}⟩
  obtain ⟨d, hd⟩ : ∃ r : BN, r = ⟨{', '.join(f's{i}.2' for i in range(16))}⟩ := ⟨_, rfl⟩
  have hdv := d.val_cast
  have hDlt := val_lt_of_Lt hdL
  rw [← hd] at hdL hDlt
  rw [hd] at hdv
  simp only [BN.ev] at hdv
  rw [← hd] at hdv
  have hsum : (v.val : ℤ) - p = 2 ^ 448 * s15.1 + d.val := by
    have hp' : (p : ℤ) + 2 ^ 224 + 1 = 2 ^ 448 := by exact_mod_cast hp
    rw [hv, hdv]
    linear_combination """+' + '.join(f'(2 ^ 28) ^ {i} * es{i}.1' for i in range(16))+""" - hp'""")
L.append('''  have hcase : (s15.1 = 0 ∧ p ≤ v.val) ∨ (s15.1 = -1 ∧ v.val < p) := by
    clear hdv hv
    clear '''+' '.join(f'es{i}' for i in range(16))+'''
    norm_num at hlt hDlt hsum hp ⊢
    omega
  obtain ⟨m, hm⟩ : ∃ m, m = (BitVec.ofInt 32 s15.1 &&& RADIX_MASK).toNat := ⟨_, rfl⟩
  simp only [← hm]
  obtain ⟨m', hm'⟩ : ∃ m', m' = m &&& 0xfffffffffffffffe := ⟨_, rfl⟩
  simp only [← hm']
  have hmm : (s15.1 = 0 ∧ m = 0 ∧ m' = 0) ∨ (s15.1 = -1 ∧ m = 0xfffffff ∧ m' = 0xffffffe) := by
    rcases hcase with ⟨h, _⟩ | ⟨h, _⟩
    · left; rw [h] at hm; subst hm; subst hm'; exact ⟨h, rfl, rfl⟩
    · right; rw [h] at hm; subst hm; subst hm'; exact ⟨h, rfl, rfl⟩
  clear hm hm\'''')
prev='0'
for i in range(16):
    mm="m'" if i==8 else 'm'
    L.append(f'''  have ec{i} := srAdd_spec {prev} s{i}.2 {mm}
  obtain ⟨c{i}, hc{i}⟩ : ∃ s, s = srAdd {prev} s{i}.2 {mm} := ⟨_, rfl⟩
  simp only [← hc{i}] at ec{i} ⊢''')
    prev=f'c{i}.1'
SD=' + '.join(f'(s{i}.2.toNat : ℤ) * (2 ^ 28) ^ {i}' for i in range(16))
SC=' + '.join(f'(c{i}.2.toNat : ℤ) * (2 ^ 28) ^ {i}' for i in range(16))
L.append(f'''  have hL : BN.Lt ⟨{', '.join(f'c{i}.2' for i in range(16))}⟩ (2 ^ 28) :=
    ⟨{', '.join(f'ec{i}.2' for i in range(16))}⟩
  obtain ⟨r, hr⟩ : ∃ r : BN, r = ⟨{', '.join(f'c{i}.2' for i in range(16))}⟩ := ⟨_, rfl⟩
  have hrv := r.val_cast
  have hrlt := val_lt_of_Lt hL
  rw [← hr] at hL hrlt ⊢
  rw [hr] at hrv
  simp only [BN.ev] at hrv
  rw [← hr] at hrv
  have hsum2 : (d.val : ℤ) + (m * (('''+' + '.join(f'(2 ^ 28) ^ {i}' for i in range(16) if i!=8)+f''')) + m' * (2 ^ 28) ^ 8) =
      2 ^ 448 * (c15.1 : ℤ) + (r.val : ℤ) := by
    rw [hrv, hdv]''')
for i in range(16):
    L.append(f'    have f{i} : _ = _ := congrArg (Nat.cast (R := ℤ)) ec{i}.1')
L.append('    simp only [Nat.cast_add, Nat.cast_mul, Nat.cast_pow, Nat.cast_ofNat, Nat.cast_zero] at '+' '.join(f'f{i}' for i in range(16)))
L.append('    linear_combination '+' + '.join(f'(2 ^ 28) ^ {i} * f{i}' for i in range(16)))
L.append(f'''  have key : r.val < p ∧ (r.val = v.val ∨ r.val + p = v.val) := by
    clear hdv {' '.join(f'es{i} ec{i}' for i in range(16))}
    generalize d.val = D at *
    generalize c15.1 = c at *
    generalize r.val = R at *
    generalize v.val = V at *
    clear hrv hv
    rcases hmm with ⟨h1, h2, h3⟩ | ⟨h1, h2, h3⟩
    · rw [h1] at hsum
      rw [h2, h3] at hsum2
      norm_num at hlt hDlt hsum hsum2 hrlt hp ⊢
      omega
    · rw [h1] at hsum
      rw [h2, h3] at hsum2
      norm_num at hlt hDlt hsum hsum2 hrlt hp ⊢
      omega
  refine ⟨?_, key.1, hL⟩
  unfold BN.toF
  rcases key.2 with h | h
  · rw [h]
  · rw [← h, Nat.cast_add, ZMod.natCast_self, add_zero]

theorem strong_reduce_val {{n : BN}} (h8 : n.l8.toNat < 2 ^ 32 - 16) :
    (strong_reduce n).val = n.toF.val := by
  obtain ⟨h1, h2, _⟩ := strong_reduce_spec h8
  rw [← h1, BN.toF, ZMod.val_natCast, Nat.mod_eq_of_lt h2]

theorem BN.Red.l8 {{n : BN}} (h : n.Red) : n.l8.toNat < 2 ^ 32 - 16 := by
  have := h.2.2.2.2.2.2.2.2.1
  simp only [RB] at this
  omega

end Ed448
''')
open('/verif/lean/Verif/Field/StrongReduce.lean','w').write('\n'.join(L))
