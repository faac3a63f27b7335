# Generates Verif/Math/EdwardsAssoc.lean (certificates for associativity of the Edwards addition law).
import sys; sys.path.insert(0,'/verif/tools')
from poly import *
x1,y1,x2,y2,x3,y3,d=setvars("x1 y1 x2 y2 x3 y3 d".split())
t=d*x1*x2*y1*y2;a=x1*y2+x2*y1;b=y1*y2-x1*x2
u=d*x2*x3*y2*y3;a2=x2*y3+x3*y2;b2=y2*y3-x2*x3
NL=a*(1-t)*y3+b*(1+t)*x3; DL=(1-t*t)+d*a*b*x3*y3
NR=x1*b2*(1+u)+y1*a2*(1-u); DR=(1-u*u)+d*a2*b2*x1*y1
MX=NL*DR-NR*DL
NLy=b*(1+t)*y3-a*(1-t)*x3; DLy=(1-t*t)-d*a*b*x3*y3
NRy=y1*b2*(1+u)-x1*a2*(1-u); DRy=(1-u*u)-d*a2*b2*x1*y1
MY=NLy*DRy-NRy*DLy
rules=[]
for i,(x,y) in enumerate([(x1,y1),(x2,y2),(x3,y3)]):
    lead=[0]*7;lead[2*i]=2;lead[2*i+1]=2
    must=list(lead)
    lead[6]=1
    rel=d*x*x*y*y-(x*x+y*y-1)
    rules.append((tuple(must),tuple(lead),rel))
print("""import Mathlib.Tactic.LinearCombination
import Mathlib.Algebra.Field.Basic

/-!
# Associativity of the Edwards addition law: polynomial certificates

Generated by `tools/gen_edwards.py`.
-/

namespace Ed448

variable {K : Type*} [Field K]
""")
st={'x':"""(({a}) * (1 - {t}) * y3 + ({b}) * (1 + {t}) * x3) * ((1 - {u} ^ 2) + d * ({a2}) * ({b2}) * x1 * y1) =
      (x1 * ({b2}) * (1 + {u}) + y1 * ({a2}) * (1 - {u})) * ((1 - {t} ^ 2) + d * ({a}) * ({b}) * x3 * y3)""",
'y':"""(({b}) * (1 + {t}) * y3 - ({a}) * (1 - {t}) * x3) * ((1 - {u} ^ 2) - d * ({a2}) * ({b2}) * x1 * y1) =
      (y1 * ({b2}) * (1 + {u}) - x1 * ({a2}) * (1 - {u})) * ((1 - {t} ^ 2) - d * ({a}) * ({b}) * x3 * y3)"""}
sub=dict(a="x1 * y2 + x2 * y1",b="y1 * y2 - x1 * x2",t="(d * x1 * x2 * y1 * y2)",u="(d * x2 * x3 * y2 * y3)",a2="x2 * y3 + x3 * y2",b2="y2 * y3 - x2 * x3")
import textwrap
for nm,M in (('x',MX),('y',MY)):
    qs,rem=reduce(M,rules)
    assert not rem.t
    body="linear_combination "+" + ".join(f"(-({show(q)})) * h{i+1}" for i,q in enumerate(qs))
    print(f"theorem edwards_assoc_{nm} {{d x1 y1 x2 y2 x3 y3 : K}} (h1 : x1 ^ 2 + y1 ^ 2 = 1 + d * x1 ^ 2 * y1 ^ 2)\n    (h2 : x2 ^ 2 + y2 ^ 2 = 1 + d * x2 ^ 2 * y2 ^ 2) (h3 : x3 ^ 2 + y3 ^ 2 = 1 + d * x3 ^ 2 * y3 ^ 2) :\n    {st[nm].format(**sub)} := by")
    print(textwrap.fill(body,width=118,initial_indent="  ",subsequent_indent="    "))
    print()
print("end Ed448")
