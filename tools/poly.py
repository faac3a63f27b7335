# Minimal multivariate polynomial arithmetic over the integers (Laurent in d), used to find the certificates in Verif/Math.
from collections import defaultdict
V=[]
class P:
    __slots__=('t',)
    def __init__(s,t): s.t={k:v for k,v in t.items() if v}
    def __add__(a,b):
        b=c(b);r=defaultdict(int,a.t)
        for k,v in b.t.items(): r[k]+=v
        return P(r)
    __radd__=__add__
    def __neg__(a): return P({k:-v for k,v in a.t.items()})
    def __sub__(a,b): return a+(-c(b))
    def __rsub__(a,b): return c(b)-a
    def __mul__(a,b):
        b=c(b);r=defaultdict(int)
        for k,v in a.t.items():
            for l,w in b.t.items():
                r[tuple(x+y for x,y in zip(k,l))]+=v*w
        return P(r)
    __rmul__=__mul__
    def __pow__(a,n):
        r=c(1)
        for _ in range(n): r=r*a
        return r
    def __len__(a): return len(a.t)
def c(x):
    if isinstance(x,P): return x
    return P({(0,)*len(V):x})
def setvars(names):
    V[:]=names
    n=len(names)
    return [P({tuple(1 if i==j else 0 for j in range(n)):1}) for i in range(n)]
def show(p):
    if not p.t: return "0"
    out=[]
    for k,v in sorted(p.t.items(),reverse=True):
        m=[f"{V[i]}^{e}" if e>1 else V[i] for i,e in enumerate(k) if e]
        assert all(e>=0 for e in k)
        if not m: s=str(abs(v))
        else: s=" * ".join(([str(abs(v))] if abs(v)!=1 else [])+m)
        out.append((" - " if v<0 else " + ")+s)
    s="".join(out)
    return ("-"+s[3:]) if s.startswith(" - ") else s[3:]
def reduce(p,rules):
    """rules: list of (leading monomial exponents, leading coefficient sign exponent tuple 'lead', rel P) where rel = lead - rest, lead monomial
    coefficient 1; reduce p, returning quotients and remainder. Exponents of d may go negative."""
    qs=[defaultdict(int) for _ in rules]
    t=dict(p.t);rem={}
    while t:
        k=max(t, key=lambda k:(sum(k),k));v=t.pop(k)
        if v==0: continue
        for i,(must,lead,rel) in enumerate(rules):
            if all(k[j]>=e for j,e in enumerate(must)):
                q=tuple(a-b for a,b in zip(k,lead))
                qs[i][q]+=v
                for l,w in rel.t.items():
                    kk=tuple(a+b for a,b in zip(q,l))
                    if kk==k: continue
                    t[kk]=t.get(kk,0)-v*w
                break
        else: rem[k]=rem.get(k,0)+v
    return [P(q) for q in qs],P(rem)
def mind(p,i):
    return min((k[i] for k in p.t),default=0)
def shift(p,i,n):
    return P({tuple(e+n if j==i else e for j,e in enumerate(k)):v for k,v in p.t.items()})
