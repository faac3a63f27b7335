#!/usr/bin/env python3
"""Generates the Karatsuba and table modules of the model from the text of /repo/src."""
import re,sys
SRC='/repo/src/';OUT='/verif/lean/Verif/Model/'
def lines(f): return open(SRC+f).read().split('\n')

def expr(e):
    e=e.strip()
    if e.startswith('((') and e.endswith('))') and balanced(e[1:-1]): return expr(e[1:-1])
    m=re.fullmatch(r'u64::wrapping_(add|sub|mul)\((.*)\)',e)
    if m and balanced(m.group(2)):
        a,b=split2(m.group(2))
        op={'add':'+','sub':'-','mul':'*'}[m.group(1)]
        return f'({expr(a)} {op} {expr(b)})'
    m=re.fullmatch(r'(.*) << 1',e)
    if m: return f'({expr(m.group(1))} <<< 1)'
    m=re.fullmatch(r'\((\w+\[\d+\] as Dword)\) \* \((\w+\[\d+\] as Dword)\)',e)
    if m: return f'({expr(m.group(1))} * {expr(m.group(2))})'
    m=re.fullmatch(r'(a|b)\[(\d+)\] as Dword',e)
    if m: return f'u64 {m.group(1)}.l{m.group(2)}'
    m=re.fullmatch(r'(aa|bb)\[(\d+)\]',e)
    if m: return f'{m.group(1)}.o{m.group(2)}'
    if e in('z0','z1','z2','0'): return e
    raise Exception('expr: '+e)
def balanced(s):
    d=0
    for c in s:
        if c=='(':d+=1
        if c==')':
            d-=1
            if d<0:return False
    return d==0
def split2(s):
    d=0
    for i,c in enumerate(s):
        if c in'([':d+=1
        if c in')]':d-=1
        if c==',' and d==0:return s[:i],s[i+1:]
    raise Exception(s)

def kara(fn,pref,params,first_marker,fname):
    L=lines(fn)
    blocks=[];cur=[];start=None;j=0
    out=[]
    i=first_marker
    end=next(k for k,l in enumerate(L) if '// finish' in l)
    seg=[];segstart=i+1
    shifts=0
    res=[]
    k=i
    while k<end:
        l=re.sub(r'//.*','',L[k]).strip()
        if l=='' : k+=1;continue
        # join multi-line statements
        while not l.endswith(';'):
            k+=1;l+=' '+re.sub(r'//.*','',L[k]).strip()
        m=re.fullmatch(r'(?:let mut )?(z[012])(?:: Dword)? = (.*);',l)
        if m:
            if not seg: segstart=k+1
            seg.append(f'  let {m.group(1)} : W64 := {expr(m.group(2))}')
        elif l=='z2 <<= 1;':
            seg.append('  let z2 : W64 := z2 <<< 1')
        elif re.fullmatch(r'c\[(\d+)\] = \(z([01]) as Word\) & RADIX_MASK;',l):
            m=re.fullmatch(r'c\[(\d+)\] = \(z([01]) as Word\) & RADIX_MASK;',l)
            n=len(res)
            assert int(m.group(1))==(n if m.group(2)=='0' else n+8)
            last=k+1
        elif l in('z0 >>= 28;','z1 >>= 28;'):
            shifts+=1
            if shifts%2==0:
                res.append((seg,segstart,last));seg=[]
        else: raise Exception(l)
        k+=1
    assert len(res)==8 and not seg
    t=''
    for n,(seg,s,e) in enumerate(res):
        zin='' if n==0 else ' (z0 z1 : W64)'
        t+=f'/-- src/{fn}:{s}-{e}, the accumulators `(z0, z1)` just before limbs {n} and {n+8} are stored. -/\n'
        t+=f'def {pref}Block{n} {params}{zin} : W64 × W64 :=\n'+'\n'.join(seg)+'\n  (z0, z1)\n\n'
    fin=end+1
    args=params.replace('(','').replace(')','').split(':')
    return t,fin,len(L)

HDR='''import Verif.Model.Rust

/-!
# %s

Generated by tools/gen_model.py from the text of src/%s, statement by statement: `wrapping_add`, `wrapping_sub`,
`wrapping_mul` and `<<` on `u64` become the `BitVec 64` operations. The products written with a plain `*`
have `u32` factors, so they cannot overflow `u64` and the wrapping product is the checked one.
-/

namespace Ed448

'''
MASKST='''/-- `(z as Word) & RADIX_MASK`, as in src/%s:%d. -/
'''
def chain(pref,callargs,fn,finline,doc):
    t=doc
    t+='  let r0 := %sBlock0 %s\n'%(pref,callargs)
    for n in range(1,8):
        t+='  let r%d := %sBlock%d %s (r%d.1 >>> 28) (r%d.2 >>> 28)\n'%(n,pref,n,callargs,n-1,n-1)
    t+='''  let z0 := r7.1 >>> 28
  let z1 := r7.2 >>> 28
'''
    return t
FIN='''/-- The `// finish` part, src/%s:%d-%d: `c` holds the sixteen stored limbs. -/
'''
KF='''  let c0 := lowLimb r0.1
  let c8 := lowLimb r0.2
  let z0 := z0 + z1
  let z0 := z0 + u64 c8
  let z1 := z1 + u64 c0
  ⟨lowLimb z1, lowLimb r1.1 + lo32 (z1 >>> 28), lowLimb r2.1, lowLimb r3.1, lowLimb r4.1,
    lowLimb r5.1, lowLimb r6.1, lowLimb r7.1, lowLimb z0, lowLimb r1.2 + lo32 (z0 >>> 28),
    lowLimb r2.2, lowLimb r3.2, lowLimb r4.2, lowLimb r5.2, lowLimb r6.2, lowLimb r7.2⟩

'''
# multiplication
body,fin,_=kara('karatsuba_32.rs','mul','(a b : BN) (aa bb : Oct)',
    next(i for i,l in enumerate(lines('karatsuba_32.rs')) if 'let mut z2' in l),'karatsuba_mul')
t=HDR%('Karatsuba multiplication','karatsuba_32.rs')
t+='''/-- `(z as Word) & RADIX_MASK`, e.g. src/karatsuba_32.rs:47. -/
def lowLimb (z : W64) : W32 := lo32 z &&& 0xfffffff

/-- The loop computing `aa[i] = a[i] + a[i+8]`, src/karatsuba_32.rs:8-11. -/
def foldHalves (a : BN) : Oct :=
  ⟨u64 a.l0 + u64 a.l8, u64 a.l1 + u64 a.l9, u64 a.l2 + u64 a.l10, u64 a.l3 + u64 a.l11,
    u64 a.l4 + u64 a.l12, u64 a.l5 + u64 a.l13, u64 a.l6 + u64 a.l14, u64 a.l7 + u64 a.l15⟩

'''
t+=body
t+=chain('mul','a b aa bb','karatsuba_32.rs',fin,f'''/-- `karatsuba_mul`, src/karatsuba_32.rs:3-{fin+15}. Between the blocks the code stores limbs `j` and `j+8` and
shifts both accumulators right by 28; the last part (`// finish`, lines {fin}-{fin+15}) folds the final carries. -/
def karatsuba_mul (a b : BN) : BN :=
  let aa := foldHalves a
  let bb := foldHalves b
''')
t+=KF+'end Ed448\n'
open(OUT+'Karatsuba.lean','w').write(t)
# square
body,fin,_=kara('karatsuba_square_32.rs','sq','(a : BN) (aa : Oct)',
    next(i for i,l in enumerate(lines('karatsuba_square_32.rs')) if 'let mut z2' in l),'karatsuba_square')
t=HDR%('Karatsuba squaring','karatsuba_square_32.rs')
t=t.replace('import Verif.Model.Rust','import Verif.Model.Karatsuba')
t+=body
t+=chain('sq','a aa','karatsuba_square_32.rs',fin,f'''/-- `karatsuba_square`, src/karatsuba_square_32.rs:3-{fin+15}. Lines 7-14 compute the same sums `aa` as the
multiplication does. -/
def karatsuba_square (a : BN) : BN :=
  let aa := foldHalves a
''')
t+=KF+'end Ed448\n'
open(OUT+'KaratsubaSquare.lean','w').write(t)
# tables
def table(fn,name,doc,leanfile,extra=''):
    s=open(SRC+fn).read()
    t='''import Verif.Model.Point

/-!
# %s

Generated by tools/gen_model.py from src/%s.
-/

namespace Ed448

'''%(doc,fn)
    es=[];ln=[]
    for m in re.finditer(r'TwistedNiels \{\s*a: \[([^\]]*)\],\s*b: \[([^\]]*)\],\s*c: \[([^\]]*)\]',s):
        ln.append(s[:m.start()].count('\n')+1)
        es.append([[v.strip() for v in g.replace('\n',' ').split(',') if v.strip()] for g in m.groups()])
    for i,e in enumerate(es):
        assert all(len(g)==16 for g in e)
        t+=f'/-- Entry {i}, src/{fn}:{ln[i]}. -/\ndef {name}{i} : TwistedNiels :=\n  ⟨'+',\n    '.join('⟨'+', '.join(g)+'⟩' for g in e)+'⟩\n\n'
    t+=f'/-- `{name}`, src/{fn}. -/\ndef {name} : List TwistedNiels :=\n  ['+',\n   '.join(', '.join(f'{name}{i}' for i in range(k,min(k+4,len(es)))) for k in range(0,len(es),4))+']\n\n'
    t+=extra+'end Ed448\n'
    open(OUT+leanfile,'w').write(t)
    return len(es)
s=open(SRC+'decaf_combs_32.rs').read()
i=s.rindex('scalar_adjustment:')
adj=re.findall(r'0x[0-9a-f]+',s[i:])
assert len(adj)==14
extra='/-- `scalar_adjustment`, src/decaf_combs_32.rs:%d. -/\ndef scalar_adjustment : Scalar :=\n  ⟨['%(s[:i].count('\n')+1)+', '.join(adj)+'], rfl⟩\n\n'
print(table('decaf_wnaf_table.rs','DECAF_WNAF_TABLE','The fixed wNAF table','WnafTable.lean'))
print(table('decaf_combs_32.rs','DECAF_PRECOMP_TABLE','The comb table','CombTable.lean',extra))
