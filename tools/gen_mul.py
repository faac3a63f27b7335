#!/usr/bin/env python3
"""Writes lean/Verif/Field/Mul.lean: correctness of karatsuba_mul."""
import os
here=os.path.dirname(os.path.abspath(__file__))
def prods(i):
    lo=[];hi=[]
    for j in range(8):
        for k in range(8):
            if j+k==i:
                lo += [(j,k),(j+8,k+8)]; hi += [(j,k+8),(j+8,k),(j+8,k+8)]
            if j+k==i+8:
                lo += [(j,k+8),(j+8,k),(j+8,k+8)]; hi += [(j,k),(j+8,k+8),(j,k+8),(j+8,k),(j+8,k+8)]
    return lo,hi
o=['''import Verif.Field.Basic

/-!
# Multiplication

Generated by tools/gen_mul.py.
-/

namespace Ed448

theorem acc_toNat (z : W64) (m : ℕ) (h : z.toNat + m < 2 ^ 64) :
    (z + (m : W64)).toNat = z.toNat + m := by
  rw [BitVec.toNat_add, BitVec.natCast_eq_ofNat, BitVec.toNat_ofNat,
    Nat.mod_eq_of_lt (a := m) (by omega), Nat.mod_eq_of_lt h]

theorem acc0_toNat (m : ℕ) (h : m < 2 ^ 64) : ((m : ℕ) : W64).toNat = m := by
  rw [BitVec.natCast_eq_ofNat, BitVec.toNat_ofNat, Nat.mod_eq_of_lt h]

theorem shr28_64 (z : W64) : (z >>> 28).toNat = z.toNat / 2 ^ 28 := by
  rw [BitVec.toNat_ushiftRight, Nat.shiftRight_eq_div_pow]

theorem lowLimb_toNat (z : W64) : (lowLimb z).toNat = z.toNat % 2 ^ 28 := by
  unfold lowLimb
  rw [show (0xfffffff : W32) = RADIX_MASK from rfl, and_mask]
  simp only [lo32, BitVec.toNat_setWidth]
  omega
''']
for i in range(8):
    for nm,pr in zip(('mulLo','mulHi'),prods(i)):
        n=len(pr)
        seen=[]
        for x in pr:
            if x not in seen: seen.append(x)
        have='\n'.join(f'  have h{j}_{k} := Nat.mul_le_mul ha{j}.le hb{k}.le' for j,k in seen)
        o.append(f'''theorem {nm}{i}_le (a b : BN) (ha : a.Lt MB) (hb : b.Lt MB) : {nm}{i} a b ≤ {n} * (MB * MB) := by
  obtain ⟨{', '.join(f'ha{j}' for j in range(16))}⟩ := ha
  obtain ⟨{', '.join(f'hb{j}' for j in range(16))}⟩ := hb
{have}
  unfold {nm}{i}
  linarith
''')
# polynomial identity
def ssum(f,rng): return ' + '.join(f(i) for i in rng)
o.append('''/-- The limb sums are the product modulo `t^16 - t^8 - 1`. -/
theorem mul_poly {R : Type} [CommRing R] (t : R) (ht : t ^ 16 = t ^ 8 + 1) (a b : BN) :
    a.ev t * b.ev t =
      ('''+' + '.join(f'(mulLo{i} a b : R) * t ^ {i}' for i in range(8))+''') +
      t ^ 8 * ('''+' + '.join(f'(mulHi{i} a b : R) * t ^ {i}' for i in range(8))+''') := by''')
def P(pr): return ' + '.join(f'a{j} * b{k}' for j,k in pr)
gen='\n'.join(f'  generalize (a.l{j}.toNat : R) = a{j}\n  generalize (b.l{j}.toNat : R) = b{j}' for j in range(16))
# coefficient: (AD+BC)_hi + BD_lo + BD_hi*(t^8+1)
co=[]
for i in range(8):
    for j in range(8):
        for k in range(8):
            if j+k==i+8:
                co.append((f'(a{j} * b{k+8} + a{j+8} * b{k})',i)); co.append((f'a{j+8} * b{k+8} * (t ^ 8 + 1)',i))
            if j+k==i:
                co.append((f'a{j+8} * b{k+8}',i))
byi={}
for c,i in co: byi.setdefault(i,[]).append(c)
coef=' +\n      '.join(f'({" + ".join(byi[i])}) * t ^ {i}' for i in range(8))
names=', '.join(f'{n}{i}' for i in range(8) for n in ('mulLo','mulHi'))
o.append(f'''  simp only [BN.ev, {names}, Nat.cast_add, Nat.cast_mul]
{gen}
  linear_combination ({coef}) * ht
''')
lines=[]
lines.append('''/-- `mul` multiplies field elements; its result is almost reduced. -/
theorem mul_spec {a b : BN} (ha : a.Lt MB) (hb : b.Lt MB) :
    (mul a b).toF = a.toF * b.toF ∧ (mul a b).Red := by''')
for i in range(8):
    lines.append(f'  have bl{i} := mulLo{i}_le a b ha hb\n  have bh{i} := mulHi{i}_le a b ha hb')
lines.append('''  have hpoly := mul_poly ((2 : F) ^ 28) t16 a b
  simp only [mul, karatsuba_mul, mulBlock0_eq, mulBlock1_eq, mulBlock2_eq, mulBlock3_eq, mulBlock4_eq,
    mulBlock5_eq, mulBlock6_eq, mulBlock7_eq]''')
for i in range(8):
    lines.append(f'  generalize mulLo{i} a b = m{i} at *\n  generalize mulHi{i} a b = w{i} at *')
lines.append('  simp only [MB] at *')
for r,m in (('r','m'),('s','w')):
    lines.append(f'''  obtain ⟨{r}0, h{r}0⟩ : ∃ z : W64, z = (({m}0 : ℕ) : W64) := ⟨_, rfl⟩
  have n{r}0 : {r}0.toNat = {m}0 := by rw [h{r}0]; exact acc0_toNat _ (by omega)
  rw [← h{r}0]''')
    for i in range(1,8):
        lines.append(f'''  obtain ⟨{r}{i}, h{r}{i}⟩ : ∃ z : W64, z = {r}{i-1} >>> 28 + (({m}{i} : ℕ) : W64) := ⟨_, rfl⟩
  have n{r}{i} : {r}{i}.toNat = {r}{i-1}.toNat / 2 ^ 28 + {m}{i} := by
    rw [h{r}{i}, acc_toNat _ _ (by rw [shr28_64]; omega), shr28_64]
  rw [← h{r}{i}]''')
lines.append('''  obtain ⟨y, hy⟩ : ∃ z : W64, z = r7 >>> 28 + s7 >>> 28 + u64 (lowLimb s0) := ⟨_, rfl⟩
  obtain ⟨x, hx⟩ : ∃ z : W64, z = s7 >>> 28 + u64 (lowLimb r0) := ⟨_, rfl⟩
  have ny : y.toNat = r7.toNat / 2 ^ 28 + s7.toNat / 2 ^ 28 + s0.toNat % 2 ^ 28 := by
    rw [hy, BitVec.toNat_add, BitVec.toNat_add, shr28_64, shr28_64]
    simp only [u64, BitVec.toNat_setWidth, lowLimb_toNat]
    omega
  have nx : x.toNat = s7.toNat / 2 ^ 28 + r0.toNat % 2 ^ 28 := by
    rw [hx, BitVec.toNat_add, shr28_64]
    simp only [u64, BitVec.toNat_setWidth, lowLimb_toNat]
    omega
  rw [← hy, ← hx]
  have l1 : (lowLimb r1 + lo32 (x >>> 28)).toNat = r1.toNat % 2 ^ 28 + x.toNat / 2 ^ 28 := by
    rw [BitVec.toNat_add, lowLimb_toNat]
    simp only [lo32, BitVec.toNat_setWidth, shr28_64]
    omega
  have l9 : (lowLimb s1 + lo32 (y >>> 28)).toNat = s1.toNat % 2 ^ 28 + y.toNat / 2 ^ 28 := by
    rw [BitVec.toNat_add, lowLimb_toNat]
    simp only [lo32, BitVec.toNat_setWidth, shr28_64]
    omega
  constructor
  · simp only [BN.toF_eq]
    rw [hpoly]
    simp only [BN.ev, lowLimb_toNat, l1, l9]
    have ht := t16''')
for r in 'rs':
    for i in range(8):
        lines.append(f'    have e{r}{i} := divmod F {r}{i}.toNat (2 ^ 28)')
        lines.append(f'    have f{r}{i} := congrArg (Nat.cast (R := F)) n{r}{i}')
lines.append('''    have ex := divmod F x.toNat (2 ^ 28)
    have ey := divmod F y.toNat (2 ^ 28)
    have fx := congrArg (Nat.cast (R := F)) nx
    have fy := congrArg (Nat.cast (R := F)) ny
    simp only [Nat.cast_add, Nat.cast_pow, Nat.cast_ofNat] at *
    generalize (2 : F) ^ 28 = t at *''')
# sum_i (r_i % T) t^i: r_i%T = r_i - t*(r_i/T);  r_i = r_{i-1}/T + m_i
terms=[]
terms.append('(-1) * ex - t ^ 8 * ey + fx + t ^ 8 * fy')
for r,sh in (('r',0),('s',8)):
    for i in range(8):
        terms.append(f'- t ^ {i+sh} * e{r}{i} + t ^ {i+sh} * f{r}{i}')
lines.append('    linear_combination '+' '.join(terms)+' - ((s7.toNat / 2 ^ 28 : ℕ) : F) * ht')
lines.append('''  · simp only [BN.Lt, lowLimb_toNat, l1, l9, RB]
    refine ⟨?_, ?_, ?_, ?_, ?_, ?_, ?_, ?_, ?_, ?_, ?_, ?_, ?_, ?_, ?_, ?_⟩ <;> omega

end Ed448
''')
o.append('\n'.join(lines))
open(os.path.join(here,'../lean/Verif/Field/Mul.lean'),'w').write('\n'.join(o))
