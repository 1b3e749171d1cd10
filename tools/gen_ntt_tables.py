#!/usr/bin/env python3
"""Generates lean/Verif/NTT/Tables.lean from the literals in /repo/src."""
import re
R='/repo/src/'
def words(fn):
    s=open(R+fn).read()
    out=[]
    for m in re.finditer(r'uint256\[32\] memory psirev = \[(.*?)\];',s,re.S):
        ws=[int(x,16) for x in re.findall(r'0x[0-9a-fA-F]+',m.group(1))]
        assert len(ws)==32; out.append((ws,s[:m.start()].count('\n')+1,s[:m.end()].count('\n')+1))
    return out
def tab(fn,name):
    s=open(R+fn).read()
    m=re.search(r'uint256\[512\] (?:memory )?'+name+r' = \[(.*?)\];',s,re.S)
    v=[int(x) for x in re.findall(r'\d+',m.group(1).replace('uint256',''))]
    assert len(v)==512
    return v,s[:m.start()].count('\n')+1
def fmt(v,per):
    ls=[]
    for i in range(0,len(v),per): ls.append('  '+', '.join(map(str,v[i:i+per])))
    return '[\n'+',\n'.join(ls)+']'
def hfmt(v): return '[\n'+',\n'.join('  '+hex(x) for x in v)+']'
(f,f0,f1),(g,g0,g1)=words('ZKNOX_NTT_falcon.sol')
a,al=tab('ZKNOX_NTT.sol','psi_rev'); b,bl=tab('ZKNOX_NTT.sol','psi_inv_rev')
c,cl=tab('ZKNOX_falcon_deploy.sol','psi_rev'); d,dl=tab('ZKNOX_falcon_deploy.sol','psi_inv_rev')
o='''/-! Twiddle tables of the contracts, copied from the sources by tools/gen_ntt_tables.py. -/

namespace Verif.NTT

'''
def emit(n,doc,t):
    global o
    o+='/-- %s -/\ndef %s : List Nat := %s\n\n'%(doc,n,t)
emit('fwWords',f'`psirev` of `_ZKNOX_NTTFW_vectorized`, src/ZKNOX_NTT_falcon.sol {f0}-{f1}: sixteen 16-bit entries per word, lowest bits first.',hfmt(f))
emit('invWords',f'`psirev` of `_ZKNOX_NTTINV_vectorized`, src/ZKNOX_NTT_falcon.sol {g0}-{g1}.',hfmt(g))
emit('psiRev',f'`psi_rev`, src/ZKNOX_NTT.sol {al}.',fmt(a,16))
emit('psiInvRev',f'`psi_inv_rev`, src/ZKNOX_NTT.sol {bl}.',fmt(b,16))
emit('deployPsiRev',f'`psi_rev`, src/ZKNOX_falcon_deploy.sol {cl}.',fmt(c,16))
emit('deployPsiInvRev',f'`psi_inv_rev`, src/ZKNOX_falcon_deploy.sol {dl}.',fmt(d,16))
o+='end Verif.NTT\n'
open('/verif/lean/Verif/NTT/Tables.lean','w').write(o)
q=12289
ch=lambda w,i:(w[i>>4]>>(16*(i&15)))&0xffff
print([ch(f,i) for i in range(512)]==a==c,[ch(g,i) for i in range(512)]==b==d)
print(all(a[2*j]**2%q==a[j] for j in range(1,256)),all((a[2*j+1]**2+a[j])%q==0 for j in range(0,256)),all(a[i]*b[i]%q==1 for i in range(512)))
br=lambda j:int(format(j,'09b')[::-1],2)
print(all(pow(a[256],br(j),q)==a[j] for j in range(512)), a[256],a[511],b[511])
