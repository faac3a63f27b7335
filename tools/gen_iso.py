# Generates Verif/Math/IsogenyCert.lean.
import sys; sys.path.insert(0,'/verif/tools')
from poly import *
import textwrap
x1,y1,x2,y2,d=setvars("x1 y1 x2 y2 d".split())
t=d*x1*x2*y1*y2;a=x1*y2+x2*y1;b=y1*y2-x1*x2
rules=[]
for i,(x,y) in enumerate([(x1,y1),(x2,y2)]):
    lead=[0]*5;lead[2*i]=2;lead[2*i+1]=2
    must=list(lead); lead[4]=1; must[4]=-99
    rules.append((tuple(must),tuple(lead),d*x*x*y*y-(x*x+y*y-1)))
m1=x1*y1;m2=x2*y2;s1=x1**2+y1**2;s2=x2**2+y2**2;D1=x1**2-y1**2;D2=x2**2-y2**2;E1=2-s1;E2=2-s2
dt=d-1
N=2*a*b*(1-t*t);D=a*a*(1-t)**2-b*b*(1+t)**2
S=a*a*(1-t)**2+b*b*(1+t)**2
ST={'x':"""d ^ 2 * (2 * (a * b) * (p * n) * (D1 * E1 * (D2 * E2) + (d - 1) * (2 * m1) * (2 * m2) * s1 * s2)) =
      d ^ 2 * ((a ^ 2 * n ^ 2 - b ^ 2 * p ^ 2) * (2 * m1 * s2 * (E1 * D2) + s1 * (2 * m2) * (D1 * E2)))""",
'y':"""d * ((a ^ 2 * n ^ 2 + b ^ 2 * p ^ 2) * (D1 * E1 * (D2 * E2) - (d - 1) * (2 * m1) * (2 * m2) * s1 * s2)) =
      d * ((2 * (p * n) ^ 2 - (a ^ 2 * n ^ 2 + b ^ 2 * p ^ 2)) * (s1 * s2 * (D1 * D2) + 2 * m1 * (2 * m2) * (E1 * E2)))"""}
MX=N*(D1*E1*D2*E2+4*dt*m1*m2*s1*s2)-D*2*(m1*s2*D2*E1+m2*s1*D1*E2)
MY=S*(D1*E1*D2*E2-4*dt*m1*m2*s1*s2)-(2*(1-t*t)**2-S)*(s1*s2*D1*D2+4*m1*m2*E1*E2)
print("""import Mathlib.Tactic.LinearCombination
import Mathlib.Algebra.Field.Basic

/-!
# The 4-isogeny is a homomorphism: polynomial certificates

Generated by `tools/gen_iso.py`.
-/

namespace Ed448

variable {K : Type*} [Field K]
""")
for nm,M,k in (('x',MX,2),('y',MY,1)):
    qs,rem=reduce(M,rules)
    assert not rem.t
    qs=[shift(q,4,k) for q in qs]
    body="linear_combination (exp := 1) "+" + ".join(f"(-({show(q)})) * h{i+1}" for i,q in enumerate(qs))
    print(f"""theorem isogeny_add_{nm} {{d x1 y1 x2 y2 a b p n m1 m2 s1 s2 D1 D2 E1 E2 : K}}
    (h1 : x1 ^ 2 + y1 ^ 2 = 1 + d * x1 ^ 2 * y1 ^ 2) (h2 : x2 ^ 2 + y2 ^ 2 = 1 + d * x2 ^ 2 * y2 ^ 2)
    (ha : a = x1 * y2 + x2 * y1) (hb : b = y1 * y2 - x1 * x2) (hp : p = 1 + d * x1 * x2 * y1 * y2)
    (hn : n = 1 - d * x1 * x2 * y1 * y2) (hm1 : m1 = x1 * y1) (hm2 : m2 = x2 * y2) (hs1 : s1 = x1 ^ 2 + y1 ^ 2)
    (hs2 : s2 = x2 ^ 2 + y2 ^ 2) (hD1 : D1 = x1 ^ 2 - y1 ^ 2) (hD2 : D2 = x2 ^ 2 - y2 ^ 2)
    (hE1 : E1 = 2 - x1 ^ 2 - y1 ^ 2) (hE2 : E2 = 2 - x2 ^ 2 - y2 ^ 2) :
    {ST[nm]} := by
  subst ha hb hp hn hm1 hm2 hs1 hs2 hD1 hD2 hE1 hE2""")
    print(textwrap.fill(body,width=118,initial_indent="  ",subsequent_indent="    "))
    print()
print("end Ed448")
