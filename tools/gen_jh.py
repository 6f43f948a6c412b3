#!/usr/bin/env python3
"""Generate lean/Verif/Model/JhTables.lean from /repo/jh/src/consts.rs, and the table of intermediate values used by the proof that
the round constants are the ones of the JH specification (lean/Verif/Proof/JhConst.lean, data part)."""
import re
src=open('/repo/jh/src/consts.rs').read()
def line(pos): return src[:pos].count('\n')+1
s='''/- Constants of /repo/jh/src/consts.rs (generated by tools/gen_jh.py). Byte strings are given as numbers, first byte most
significant, as in the hex strings of the source. -/
namespace Hashes.Jh

'''
for n in (224,256,384,512):
    m=re.search(r'JH%d_H0: \[u8; 128\] = hex!\(([^)]*)\)'%n,src)
    h=''.join(re.findall(r'"([0-9a-f]+)"',m.group(1))); assert len(h)==256
    s+=f'/-- `JH{n}_H0`, consts.rs:{line(m.start())}-{line(m.end())} -/\ndef h{n}Nat : Nat := 0x{h}\n\n'
m=re.search(r'E8_BITSLICE_ROUNDCONSTANT[^=]*= \[(.*?)\];',src,re.S)
rc=re.findall(r'hex!\("([0-9a-f]+)"\)',m.group(1)); assert len(rc)==42 and all(len(x)==64 for x in rc)
s+=f'/-- `E8_BITSLICE_ROUNDCONSTANT`, consts.rs:{line(m.start())}-{line(m.end())} -/\ndef rcNat : List Nat := [\n  '+',\n  '.join('0x'+x for x in rc)+']\n\nend Hashes.Jh\n'
open('/verif/lean/Verif/Model/JhTables.lean','w').write(s)
S0=[9,0,4,11,13,12,3,15,1,10,2,6,7,5,8,14]
def mul2(x): return ((x<<1)^(x>>3)^((x>>2)&2))&15
c=[int(x,16) for x in '6a09e667f3bcc908b2fb1366ea957d3e3adec17512775099da2f590b0667322a']
tab=[]
for r in range(42):
    tab.append(''.join('%x'%x for x in c))
    v=[S0[x] for x in c]
    for i in range(0,64,2):
        v[i+1]^=mul2(v[i]); v[i]^=mul2(v[i+1])
    for i in range(0,64,4): v[i+2],v[i+3]=v[i+3],v[i+2]
    c=[v[2*i] for i in range(32)]+[v[2*i+1] for i in range(32)]
    for i in range(32,64,2): c[i],c[i+1]=c[i+1],c[i]
s='/- Intermediate values for the proof about the round constants (generated by tools/gen_jh.py): the specification constants\nas 256-bit numbers; proved equal to the recursive definition in Proof/Jh.lean. -/\nnamespace Hashes.Jh\n\ndef cTab : List Nat := [\n  '+',\n  '.join('0x'+x for x in tab)+']\n\nend Hashes.Jh\n'
open('/verif/lean/Verif/Proof/JhConst.lean','w').write(s)
