"""Writes lean/Verif/Proofs/ArcCheck/Rate*.lean: the intermediate transcript states at which the kernel
evaluation of the round constants is split.  They are hints: the kernel checks every step."""
import os
M64=(1<<64)-1
q=8444461749428370424248824938781546531375899335154063827935233455917409239041
def rol(x,n): n%=64; return ((x<<n)|(x>>(64-n)))&M64 if n else x
def keccakf(A):
    A=[list(A[5*y:5*y+5]) for y in range(5)]
    r=1
    for rnd in range(24):
        C=[A[0][x]^A[1][x]^A[2][x]^A[3][x]^A[4][x] for x in range(5)]
        D=[C[(x-1)%5]^rol(C[(x+1)%5],1) for x in range(5)]
        A=[[A[y][x]^D[x] for x in range(5)] for y in range(5)]
        x,y=1,0; cur=A[y][x]
        for t in range(24):
            x,y=y,(2*x+3*y)%5
            cur,A[y][x]=A[y][x],rol(cur,(t+1)*(t+2)//2)
        for y in range(5):
            T=list(A[y])
            for x in range(5): A[y][x]=T[x]^((~T[(x+1)%5])&M64&T[(x+2)%5])
        for j in range(7):
            r=((r<<1)^((r>>7)*0x71))%256
            if r&2: A[0][0]^=1<<((1<<j)-1)
    return sum(A,[])
FI,FA,FC,FT,FM,FK=1,2,4,8,16,32
R=166
class Strobe:
    def __init__(s,label):
        st=bytearray(200); st[0:6]=bytes([1,R+2,1,0,1,96]); st[6:18]=b"STROBEv1.0.2"
        s.st=st; s.perm(); s.pos=0;s.pb=0
        s.meta_ad(label,False)
    def perm(s):
        A=keccakf([int.from_bytes(s.st[8*i:8*i+8],'little') for i in range(25)])
        s.st=bytearray(b''.join(a.to_bytes(8,'little') for a in A))
    def run_f(s):
        s.st[s.pos]^=s.pb; s.st[s.pos+1]^=0x04; s.st[R+1]^=0x80
        s.perm(); s.pos=0; s.pb=0
    def absorb(s,d):
        for b in d:
            s.st[s.pos]^=b; s.pos+=1
            if s.pos==R: s.run_f()
    def squeeze(s,n):
        o=bytearray()
        for _ in range(n):
            o.append(s.st[s.pos]); s.st[s.pos]=0; s.pos+=1
            if s.pos==R: s.run_f()
        return bytes(o)
    def begin(s,fl,more):
        if more: return
        old=s.pb; s.pb=s.pos+1
        s.absorb(bytes([old,fl]))
        if fl&(FC|FK) and s.pos!=0: s.run_f()
    def meta_ad(s,d,more): s.begin(FM|FA,more); s.absorb(d)
    def ad(s,d,more): s.begin(FA,more); s.absorb(d)
    def prf(s,n,more): s.begin(FI|FA|FC,more); return s.squeeze(n)
    def append(s,l,m):
        s.meta_ad(l,False); s.meta_ad(len(m).to_bytes(4,'little'),True); s.ad(m,False)
    def challenge(s,l,n):
        s.meta_ad(l,False); s.meta_ad(n.to_bytes(4,'little'),True); return s.prf(n,False)
    def snap(s): return (int.from_bytes(s.st,'little'),s.pos,s.pb)
D=os.path.join(os.path.dirname(os.path.abspath(__file__)),"..","lean/Verif/Proofs/ArcCheck")
for n in range(1,8):
    t=n+1
    T=Strobe(b"Merlin v1.0"); T.append(b"dom-sep",b"round-constants")
    T.append(b"dom-sep",b"poseidon-paramgen")
    T.append(b"t",t.to_bytes(8,'little')); T.append(b"M",(128).to_bytes(8,'little')); T.append(b"p",q.to_bytes(32,'little'))
    T.append(b"r_F",bytes([8])); T.append(b"r_P",bytes([31])); T.append(b"alpha",(17).to_bytes(4,'little'))
    snaps=[T.snap()]
    for i in range(t):
        for _ in range(39): T.challenge(b"round-constant",48)
        snaps.append(T.snap())
    o=[f"import Verif.Proofs.ArcCheck.Messages",f"import Verif.Params.Rate{n}","",
       f"/-! # The shipped round constants of rate {n} are those of the transcript (written by tools/gen_arc_check.py) -/","",
       "namespace Poseidon","",f"/-- Transcript states after every 39 constants. -/",f"def rate{n}States : Nat → Nat × Nat × Nat"]
    for i,s in enumerate(snaps): o.append(f"  | {i} => ({s[0]}, {s[1]}, {s[2]})")
    o.append("  | _ => (0, 0, 0)\n")
    o.append(f"theorem rate{n}_start : checkStart (msgsLit {t}) (rate{n}States 0) = true := by decide +kernel\n")
    for i in range(t):
        o.append(f"theorem rate{n}_seg{i} : checkSeg q (((canons rate{n}Raw.arc).drop (39 * {i})).take 39) (rate{n}States {i}) (rate{n}States {i+1}) = true := by\n  decide +kernel\n")
    o.append(f"theorem rate{n}_arc_check : checkDraw (msgsLit {t}) (canons rate{n}Raw.arc) = true := by")
    o.append(f"  refine checkDraw_segs (n := 39) (c := {t}) rate{n}States (by decide +kernel) rate{n}_start ?_")
    o.append(f"  intro j hj")
    o.append(f"  match j, hj with")
    for i in range(t): o.append(f"  | {i}, _ => exact rate{n}_seg{i}")
    o.append("\nend Poseidon\n")
    open(os.path.join(D,f"Rate{n}.lean"),"w").write("\n".join(o))
