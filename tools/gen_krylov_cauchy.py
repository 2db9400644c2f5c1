from fractions import Fraction as Q
from math import lcm
def inv(m):
    n=len(m); a=[[Q(x) for x in r]+[Q(int(i==j)) for j in range(n)] for i,r in enumerate(m)]
    for c in range(n):
        p=next(r for r in range(c,n) if a[r][c]!=0)
        a[p],a[c]=a[c],a[p]
        f=a[c][c]; a[c]=[x/f for x in a[c]]
        for r in range(n):
            if r!=c and a[r][c]!=0:
                f=a[r][c]; a[r]=[x-f*y for x,y in zip(a[r],a[c])]
    return [r[n:] for r in a]
for t in range(2,9):
    l=1
    for k in range(t,3*t-1): l=lcm(l,k)
    A=[[l//(i+j+t) for j in range(t)] for i in range(t)]
    K=[[int(i==0) for i in range(t)]]
    for _ in range(t-1):
        r=K[-1]; K.append([sum(r[k]*A[k][j] for k in range(t)) for j in range(t)])
    N=inv(K); D=1
    for r in N:
        for x in r: D=lcm(D,x.denominator)
    N=[[int(x*D) for x in r] for r in N]
    y=D; fs={}
    for p in range(2,1000):
        while y%p==0: y//=p; fs[p]=fs.get(p,0)+1
    print(t,l,D.bit_length(),fs,y, max(len(str(x)) for r in N for x in r))
import sys
out=[]
for t in range(2,9):
    l=1
    for k in range(t,3*t-1): l=lcm(l,k)
    A=[[l//(i+j+t) for j in range(t)] for i in range(t)]
    K=[[int(i==0) for i in range(t)]]
    for _ in range(t-1):
        r=K[-1]; K.append([sum(r[k]*A[k][j] for k in range(t)) for j in range(t)])
    N=inv(K); D=1
    for r in N:
        for x in r: D=lcm(D,x.denominator)
    N=[[int(x*D) for x in r] for r in N]
    f=lambda m: '['+',\n  '.join('['+', '.join(map(str,r))+']' for r in m)+']'
    out.append(f'''/-- Width {t}: row `n` is row 0 of the `n`-th power of the integer matrix `{l} / (i + j + {t})`. -/
def kryK{t} : List (List Int) :=
  {f(K)}

/-- `{D}` times the inverse of `kryK{t}`. -/
def kryN{t} : List (List Int) :=
  {f(N)}
''')
    print(t,l,D,file=sys.stderr)
open('/verif/lean/Verif/Params/KrylovCauchy.lean','w').write('''/-! Certificates for `Proofs/KrylovCauchy.lean`, computed by Gaussian elimination; their correctness is checked there. -/

namespace Poseidon

'''+'\n'.join(out)+'''
end Poseidon
''')
