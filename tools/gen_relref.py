# Writes lean/Verif/Proofs/RelRef.lean and RelRefCurve.lean from lean/Verif/Gen/Rel*.lean.
import os
os.chdir(os.path.join(os.path.dirname(os.path.abspath(__file__)), "..", "lean", "Verif"))
import re
def gen(mod, imports, title, fvar):
    src=open('Gen/Rel%s.lean'%mod).read()
    out=[]
    for m in re.finditer(r'^def (\S+)((?: \([^)]*(?:\([^)]*\)[^)]*)*\))*) : (.*) :=$',src,re.M):
        name,args,ty=m.groups()
        if not ty.startswith('Option'): 
            print('skip',name,ty); skipped.append(name); continue
        bs=re.findall(r'\((\w+) : ((?:[^()]|\([^()]*\))*)\)',args)
        # group
        g=[]
        for n,t in bs:
            if g and g[-1][1]==t: g[-1][0].append(n)
            else: g.append(([n],t))
        binders=' '.join('{%s : %s}'%(' '.join(ns),t) for ns,t in g)
        call=' '.join(n for n,_ in bs)
        F=' (F := F)' if fvar and ('MontgomeryPoint' in name or 'F' in re.findall(r'\bF\b',args+ty)) else ''
        out.append('instance %s :\n    Ref (Gen.%s%s %s) (%s%s %s) := by\n  unfold Gen.%s %s\n%s  ref\n'%(binders,name,F,call,name,F,call,name,name,'  rw [show karatsuba.mul.part1 a b = Gen.karatsuba.mul.part1 a b from rfl]\n' if name=='karatsuba.mul' else ''))
    return out
skipped=[]

H='''%s

/-!
# %s

Written by tools/gen_relref.py from the definitions of `Verif.Gen.Rel*`: wherever a function of the translation with
overflow checks returns, the function of the translation with wrapping arithmetic returns the same value.
-/

namespace Ed448.Rel
open Ed448.Model

set_option maxRecDepth 10000
%s
%s
end Ed448.Rel
'''
a=gen('Scalar',None,None,False)+gen('U32',None,None,False)
open('Proofs/RelRef.lean','w').write(H%('import Verif.Gen.RelScalar\nimport Verif.Gen.RelU32\nimport Verif.Proofs.RelLogic','Release builds refine debug builds: scalars and the 32-bit field','','\n'.join(a)))
a=gen('Curve',None,None,True)
open('Proofs/RelRefCurve.lean','w').write(H%('import Verif.Gen.RelCurve\nimport Verif.Proofs.RelRef','Release builds refine debug builds: curves','variable {F L : Type} [FieldBackend F L]\n','\n'.join(a)))
