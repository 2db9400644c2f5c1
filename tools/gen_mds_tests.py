"""Writes lean/Verif/Params/MdsTests.lean: for the Cauchy matrix M of width t and each r in 2..4t, coefficients c with
M e0 = sum_k c_k M^(r k) e0 (the certificates of Verif.Proofs.MdsTestsCert): modulo q for t in 2..8, over the integers with a
denominator for t = 2, 3, and the dependency of the first multiples by M^3 for t = 5 modulo a 172-bit prime."""
import os
from math import lcm, gcd
from fractions import Fraction
q=8444461749428370424248824938781546531375899335154063827935233455917409239041
p172=5035313429233177725991365206272449831475738378188133
def orb(t,n,m):
    L=lcm(*range(t,3*t-1))
    w=[1]+[0]*(t-1); ws=[w]
    for _ in range(n):
        w=[sum(L//(i+j+t)*w[j] for j in range(t)) for i in range(t)]
        if m: w=[x%m for x in w]
        ws.append(w)
    return L,ws
def solve_mod(cols,b,m):
    n=len(cols); t=len(b)
    A=[[cols[c][i] for c in range(n)]+[b[i]] for i in range(t)]
    r=0;piv=[]
    for c in range(n):
        pr=next((x for x in range(r,t) if A[x][c]%m),None)
        if pr is None: return None
        A[r],A[pr]=A[pr],A[r]
        iv=pow(A[r][c],-1,m)
        A[r]=[x*iv%m for x in A[r]]
        for x in range(t):
            if x!=r and A[x][c]: 
                f=A[x][c]; A[x]=[(a-f*b)%m for a,b in zip(A[x],A[r])]
        piv.append(c); r+=1
    for x in range(r,t):
        if A[x][n]%m: return None
    return [A[i][n] for i in range(n)]
def solve_q(cols,b):
    n=len(cols)
    A=[[Fraction(cols[c][i]) for c in range(n)]+[Fraction(b[i])] for i in range(n)]
    for c in range(n):
        pr=next(x for x in range(c,n) if A[x][c])
        A[c],A[pr]=A[pr],A[c]
        iv=A[c][c]; A[c]=[x/iv for x in A[c]]
        for x in range(n):
            if x!=c and A[x][c]:
                f=A[x][c]; A[x]=[a-f*b for a,b in zip(A[x],A[c])]
    return [A[i][n] for i in range(n)]

def factor(n):
    """Factors below 2^127, by trial division and Pollard's rho; the cofactor may be composite."""
    fs=[]
    d=2
    while d<1<<16 and n>1:
        while n%d==0: fs.append(d); n//=d
        d+=1
    def isp(n): return all(pow(a,n-1,n)==1 for a in (2,3,5,7,11,13))
    def split(n):
        if n==1: return []
        if n<1<<127 or isp(n): return [n]
        c=1
        while True:
            x=y=2; d=1
            while d==1:
                p=1
                for _ in range(256):
                    x=(x*x+c)%n; y=(y*y+c)%n; y=(y*y+c)%n; p=p*(x-y)%n
                d=gcd(p,n)
            if d!=n: return split(d)+split(n//d)
            c+=1
    return fs+split(n)

def lst(l): return "["+", ".join(map(str,l))+"]"
if __name__=="__main__":
    o=["/-! Generated by `tools/gen_mds_tests.py`: certificates for the matrix tests of the Poseidon authors. -/","","namespace Poseidon",""]
    for t in range(2,9):
        L,ws=orb(t,4*t*(t-1),q)
        o+=["/-- Row `r - 2`: `M e0` in terms of `M^(r k) e0`, `k < %d`, modulo `q`, for `%d` times the Cauchy matrix of width %d -/"%(t,L,t),
            "def mdsCoef%d : List (List Nat) := ["%t]
        rows=[solve_mod([ws[r*k] for k in range(t)],ws[1],q) for r in range(2,4*t+1)]
        o+=["  "+",\n  ".join(lst(c) for c in rows)+"]",""]
    for t in (2,3):
        L,ws=orb(t,4*t*(t-1),0)
        Ds=[];P=[];N=[]
        for r in range(2,4*t+1):
            c=solve_q([ws[r*k] for k in range(t)],ws[1])
            D=1
            for x in c: D=lcm(D,x.denominator)
            fs=factor(D)
            assert all(f<1<<127 for f in fs)
            z=[int(x*D) for x in c]
            Ds.append(fs);P.append([max(x,0) for x in z]);N.append([max(-x,0) for x in z])
        for nm,doc,v in (("Den","factors of the common denominator",Ds),("Pos","positive parts of the numerators",P),("Neg","negative parts of the numerators",N)):
            o+=["/-- Width %d over the integers, row `r - 2`: %s -/"%(t,doc),"def mds%s%d : List (List Nat) := ["%(nm,t),"  "+",\n  ".join(map(lst,v))+"]",""]
    L,ws=orb(5,12,p172)
    o+=["/-- A prime of 172 bits -/","def p172 : Nat := %d"%p172,"","/-- Width 5 modulo `p172`: `M^12 e0` in terms of `M^(3 k) e0`, `k < 4` -/","def mdsDep5 : List Nat := "+lst(solve_mod([ws[3*k] for k in range(4)],ws[12],p172)),"","end Poseidon",""]
    open(os.path.join(os.path.dirname(__file__),"..","lean/Verif/Params/MdsTests.lean"),"w").write("\n".join(o))
