#!/usr/bin/env python3
# writes /verif/lean/Verif/Field/KaratsubaPoly.lean
def prods(i):
    # limb i of the product (a+b phi)(c+d phi), phi^2=phi+1, lists of (ai,bj) index pairs
    lo=[];hi=[]
    for j in range(8):
        for k in range(8):
            if j+k==i:
                lo += [(j,k),(j+8,k+8)]
                hi += [(j,k+8),(j+8,k),(j+8,k+8)]
            if j+k==i+8:
                lo += [(j,k+8),(j+8,k),(j+8,k+8)]
                hi += [(j,k),(j+8,k+8),(j,k+8),(j+8,k),(j+8,k+8)]
    return lo,hi
def wrap(terms,ind=4):
    out=[];line=' '*ind
    for n,t in enumerate(terms):
        s=t+(' +' if n<len(terms)-1 else '')
        if len(line)+len(s)+1>110: out.append(line.rstrip()); line=' '*ind
        line+=s+' '
    out.append(line.rstrip())
    return '\n'.join(out)
o=[]
o.append('''import Verif.Model.BigNumber
import Verif.Field.Words
import Mathlib.Tactic.Ring

/-!
# The accumulators of the Karatsuba multiplication are sums of products

Generated by tools/gen_kar.py. `mulLo i`, `mulHi i` are limbs `i` and `i + 8` of the product before carrying.
-/

set_option linter.unusedSimpArgs false

namespace Ed448
''')
for i in range(8):
    lo,hi=prods(i)
    for nm,pr in (('mulLo',lo),('mulHi',hi)):
        half = 'low' if nm=='mulLo' else 'high'
        o.append(f'/-- Sum of products for limb {i+(8 if nm=="mulHi" else 0)} of the product. -/')
        o.append(f'def {nm}{i} (a b : BN) : ℕ :=\n'+wrap([f'a.l{j}.toNat * b.l{k}.toNat' for j,k in pr])+'\n')
for i in range(8):
    zs = '' if i==0 else ' (z0 z1 : W64)'
    za = '' if i==0 else ' z0 z1'
    r0 = f'((mulLo{i} a b : ℕ) : W64)' if i==0 else f'z0 + ((mulLo{i} a b : ℕ) : W64)'
    r1 = f'((mulHi{i} a b : ℕ) : W64)' if i==0 else f'z1 + ((mulHi{i} a b : ℕ) : W64)'
    o.append(f'''theorem mulBlock{i}_eq (a b : BN){zs} :
    mulBlock{i} a b (foldHalves a) (foldHalves b){za} =
      ({r0}, {r1}) := by
  simp only [mulBlock{i}, foldHalves, mulLo{i}, mulHi{i}, Prod.mk.injEq, u64_eq_cast, w64_zero_add, w64_add_zero]
  constructor <;> push_cast <;> ring
''')
for i in range(8):
    zs = '' if i==0 else ' (z0 z1 : W64)'
    za = '' if i==0 else ' z0 z1'
    o.append(f'''theorem sqBlock{i}_eq (a : BN){zs} :
    sqBlock{i} a (foldHalves a){za} = mulBlock{i} a a (foldHalves a) (foldHalves a){za} := by
  simp only [sqBlock{i}, mulBlock{i}, foldHalves, Prod.mk.injEq, shl1_eq, w64_zero_add, w64_add_zero]
  constructor <;> ring
''')
o.append('''theorem karatsuba_square_eq (a : BN) : karatsuba_square a = karatsuba_mul a a := by
  simp only [karatsuba_square, karatsuba_mul, sqBlock0_eq, sqBlock1_eq, sqBlock2_eq, sqBlock3_eq,
    sqBlock4_eq, sqBlock5_eq, sqBlock6_eq, sqBlock7_eq]

end Ed448
''')
open('/verif/lean/Verif/Field/KaratsubaPoly.lean','w').write('\n'.join(o))
