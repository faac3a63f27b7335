# Generates Verif/Math/Prime.lean: Pocklington certificates. Factorisations were found by trial division and ECM.
import math
def isp(n):
    if n<2:return False
    d=n-1;s=0
    while d%2==0:d//=2;s+=1
    for a in (2,3,5,7,11,13,17,19,23,29,31,37):
        if n==a:return True
        if n%a==0:return False
        x=pow(a,d,n)
        if x in(1,n-1):continue
        for _ in range(s-1):
            x=x*x%n
            if x==n-1:break
        else:return False
    return True
def rho(n):
    if n%2==0:return 2
    c=1
    while True:
        x=y=2;d=1
        while d==1:
            x=(x*x+c)%n;y=(y*y+c)%n;y=(y*y+c)%n
            d=math.gcd(abs(x-y),n)
        if d!=n:return d
        c+=1
P=2**448-2**224-1
Q=2**446-13818066809895115352007386748515426880336692474882178609894547503885
known={P:[2,641,18287,196687,1466449,2916841,6700417,1469495262398780123809,167773885276849215533569,596242599987116128415063,37414057161322375957408148834323969],
Q:[2,3,19,19,97,227393,3009341,342682509629,6730519843040614479184435237013,547972593843380542316719287015009101629889568888367769396279985548530313239],
37414057161322375957408148834323969:[2]*9+[3,3,7,36753053,1255525949,25136521679249],
6730519843040614479184435237013:[2,2,41389,7156907,671065561,8464734851]}
def fac(n):
    if n==1:return []
    if isp(n):return [n]
    for p in range(2,10**5):
        if n%p==0:return [p]+fac(n//p)
    d=rho(n);return fac(d)+fac(n//d)
out=[];done=set()
def name(n): return {P:'prime_p',Q:'prime_q'}.get(n,f'prime_{n}')
def lit(n): return {P:'(2 ^ 448 - 2 ^ 224 - 1)',Q:'(2 ^ 446 - 13818066809895115352007386748515426880336692474882178609894547503885)'}.get(n,str(n))
def cert(n):
    if n in done:return
    done.add(n)
    if n<10**6:
        out.append(f"theorem {name(n)} : Nat.Prime {n} := by norm_num\n");return
    f=known.get(n) or fac(n-1)
    m=1
    for x in f:m*=x;assert isp(x)
    assert m==n-1
    fs=sorted(set(f),reverse=True)
    cube = n==Q
    if cube: fs=fs[1:]
    l=[];F=1
    for x in fs:
        if cube:
            if F**3>n: break
        elif F*F>n:break
        l.append(x);F*=x
    assert F**3>n if cube else F*F>n
    if cube:
        R=(n-1)//F; assert R//F+1<R%F
    a=2
    while not(pow(a,n-1,n)==1 and all(math.gcd(pow(a,(n-1)//x,n)-1,n)==1 for x in l)):a+=1
    for x in l:cert(x)
    k=n.bit_length()
    th='pocklington3' if cube else 'pocklington'
    out.append(f"theorem {name(n)} : Nat.Prime {lit(n)} :=\n  {th} (k := {k}) (a := {a}) (l := {l})\n    (by simp only [List.forall_mem_cons]; exact ⟨{', '.join(name(x) for x in l)}, by simp⟩)\n    (by decide) (by decide +kernel) (by decide +kernel)"+(" (by decide +kernel)" if cube else "")+"\n")
cert(P);cert(Q)
print("import Verif.Math.Pocklington\nimport Mathlib.Tactic.NormNum.Prime\n\n/-!\n# p and q are prime\n\nGenerated by `tools/gen_prime.py`.\n-/\n\nset_option exponentiation.threshold 1000\n\nnamespace Ed448\n")
print("\n".join(out))
print("end Ed448")
