from math import isqrt
p=2**448-2**224-1
l=2**446-0x8335dc163bb124b65129c96fde933d8d723a70aadc873d6d54a7bb0d
from collections import Counter
C={}
C[p]=[2,18287,196687,1466449,2916841,1469495262398780123809,596242599987116128415063,641,6700417,167773885276849215533569,37414057161322375957408148834323969]
def add(s):
    for part in s.split(';'):
        part=part.strip()
        if not part: continue
        n,f=part.split(':'); n=int(n); L=[]
        for t in f.strip()[1:-1].split(','):
            if '^' in t: b,e=t.split('^'); L+= [int(b)]*int(e)
            else: L.append(int(t))
        C[n]=L
add("1466449:[2^4,3,137,223]; 2916841:[2^3,3,5,109,223]; 6700417:[2^7,3,17449]; 1469495262398780123809:[2^5,3,7^2,223,411743,3402277943]; 3402277943:[2,7,151,1609403]; 1609403:[2,23,59,593]; 167773885276849215533569:[2^9,3^3,7^2,2531,97859369123353]; 97859369123353:[2^3,3^2,67,197,271,379979]; 596242599987116128415063:[2,37,223,36131535570665139281]; 36131535570665139281:[2^4,5,13,34741861125639557]; 34741861125639557:[2^2,7^3,31,463,1764234391]; 1764234391:[2,3,5,271,217003]; 37414057161322375957408148834323969:[2^9,3^2,7,36753053,1255525949,25136521679249]; 36753053:[2^2,7,443,2963]; 1255525949:[2^2,2683,116989]; 25136521679249:[2^4,7^2,32061889897]; 32061889897:[2^3,3,1335912079]; 1335912079:[2,3,19,31,61,6197]")
add("3009341:[2^2,5,17,53,167]; 342682509629:[2^2,17,6577,766223]; 6730519843040614479184435237013:[2^2,41389,7156907,671065561,8464734851]; 7156907:[2,3578453]; 3578453:[2^2,894613]; 671065561:[2^3,3^4,5,11,19,991]; 8464734851:[2,5^2,11,13,23,51473]")
# extra small with trial division
def tf(n):
    r=[];q=2
    while q*q<=n:
        while n%q==0: r.append(q); n//=q
        q+=1
    if n>1:r.append(n)
    return r
done=set(); out=[]
def prove(n):
    if n in done: return
    done.add(n)
    if n<500000 and n not in C:
        out.append(f"theorem prime_{n} : Nat.Prime {n} := by norm_num\n"); return
    f=C.get(n) or tf(n-1)
    x=1
    for q in f:x*=q
    assert x==n-1,n
    for q in sorted(set(f)): prove(q)
    a=2
    while not (pow(a,n-1,n)==1 and all(pow(a,(n-1)//q,n)!=1 for q in set(f))): a+=1
    c=sorted(Counter(f).items())
    fs="["+", ".join(f"({q}, {e})" for q,e in c)+"]"
    hyp=", ".join(f"prime_{q}" for q,e in c)
    out.append(f"theorem prime_{n} :\n    Nat.Prime {n} :=\n  pratt {n} {a}\n    {fs}\n    (by simp only [List.forall_mem_cons, List.not_mem_nil, false_imp_iff, implies_true, and_true]; exact ⟨{hyp}⟩)\n    (by decide +kernel)\n")
prove(p)
fl=[227393,3009341,342682509629,6730519843040614479184435237013]
for q in fl: prove(q)
F=1
for q in fl: F*=q
from math import gcd
a=2
while not (pow(a,l-1,l)==1 and all(gcd(pow(a,(l-1)//q,l)-1,l)==1 for q in fl)): a+=1
c2=(l-1)//(F*F); c1=(l-1)//F % F
D=c1*c1-4*c2; s=isqrt(D); assert s*s<D
assert c2+1<F
hyp=", ".join(f"prime_{q}" for q in fl)
out.append(f"theorem prime_{l} :\n    Nat.Prime {l} :=\n  bls {l} {a}\n    {c1} {c2}\n    {s}\n    {fl}\n    (by simp only [List.forall_mem_cons, List.not_mem_nil, false_imp_iff, implies_true, and_true]; exact ⟨{hyp}⟩)\n    (by decide +kernel)\n")
open('Verif/Spec/Primes.lean','w').write('''import Verif.Spec.PowMod

/-!
# Primality certificates

Generated Pratt certificates (and one Brillhart–Lehmer–Selfridge certificate for the group order).
Each is checked by the kernel through `pratt` / `bls`.
-/

namespace Ed448.Primes

'''+"\n".join(out)+"\nend Ed448.Primes\n")
